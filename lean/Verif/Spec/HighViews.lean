import Verif.Model.HighViews
import Verif.Spec.Index
import Mathlib.Algebra.BigOperators.Group.List.Basic

/-!
# What views with many axes contain
-/

namespace Cnine

variable {α : Type}

namespace HV

/-- The cell of the entry `ix`. -/
def at' (v : HV) (ix : List Nat) : Nat := v.arr + dot v.ss ix

/-- The entries of `v` are `X`. -/
def Has (v : HV) (m : Buf α) (X : List Nat → α) : Prop := ∀ ix, InRange ix v.ns → m (v.at' ix) = some (X ix)

/-- Different entries lie in different cells. -/
def Inj (v : HV) : Prop := ∀ ix, InRange ix v.ns → ∀ jx, InRange jx v.ns → v.at' ix = v.at' jx → ix = jx

/-- `c` is a cell of `v`. -/
def Cov (v : HV) (c : Nat) : Prop := ∃ ix, InRange ix v.ns ∧ c = v.at' ix

/-- No cell belongs to both. -/
def Apart (v x : HV) : Prop := ∀ c, v.Cov c → ¬ x.Cov c

/-- The stride of each axis is the product of the later sizes. -/
def Compact (v : HV) : Prop := v.ss = v.ns.tails.tail.map List.prod

/-- One step along axis `k` is as long as axis `k+1`. -/
def Linked (v : HV) (k : Nat) : Prop := v.ss.getD k 0 = v.ns.getD (k + 1) 0 * v.ss.getD (k + 1) 0

/-- What a reduction along axis `k` does. -/
def Summed [AddCommMonoid α] (v : HV) (k : Nat) (m m' : Buf α) (X : List Nat → α) : Prop :=
  (∀ ix, InRange ix v.ns → m' (v.at' (ix.set k 0)) = some ((List.range (v.ns.getD k 0)).map fun i => X (ix.set k i)).sum) ∧
    ∀ c, ¬ v.Cov c → m' c = m c

end HV

namespace CHV

/-- The entries of `v` are `X`. -/
def Has (v : CHV) (m : Buf α) (X : List Nat → Cx α) : Prop :=
  ∀ ix, InRange ix v.ns → m (v.arr + dot v.ss ix) = some (X ix).re ∧ m (v.arrc + dot v.ss ix) = some (X ix).im

/-- Different entries, and the two parts of an entry, lie in different cells. -/
def Sep (v : CHV) : Prop := ∀ ix, InRange ix v.ns → ∀ jx, InRange jx v.ns →
  (dot v.ss ix = dot v.ss jx → ix = jx) ∧ v.arr + dot v.ss ix ≠ v.arrc + dot v.ss jx

/-- One step along axis `k` is as long as axis `k+1`. -/
def Linked (v : CHV) (k : Nat) : Prop := v.ss.getD k 0 = v.ns.getD (k + 1) 0 * v.ss.getD (k + 1) 0

end CHV

/-- The index of a view in which the axes `k` and `k+1`, the latter of size `n`, are one: entry `k` is a position in the two. -/
def unfuse (n : Nat) : Nat → List Nat → List Nat
  | _, [] => []
  | 0, q :: l => q / n :: q % n :: l
  | k + 1, a :: l => a :: unfuse n k l

end Cnine
