import Verif.Model.CtensorB
import Verif.Spec.RtensorA

/-!
# What a complex tensor of backend B holds
-/

namespace Cnine

variable {α : Type}

namespace CB

/-- `x` is the tensor with sizes `D` and entries `F`: the array lists the entries in row-major order, each real part followed by the imaginary part. -/
structure Is (x : CB) (D : List Nat) (F : List Nat → Cx α) (m : Buf α) : Prop where
  ne : D ≠ []
  dims : x.dims = D
  strides : x.strides = D.tails.tail.map fun l => l.prod * 2
  asize : x.asize = D.prod
  memsize : x.memsize = 2 * D.prod
  coffs : x.coffs = 1
  has : ∀ ix, InRange ix D → m (x.arr + 2 * position D ix) = some (F ix).re ∧ m (x.arr + (2 * position D ix + 1)) = some (F ix).im

/-- `c` is a cell of the tensor. -/
def Owns (x : CB) (c : Nat) : Prop := x.arr ≤ c ∧ c < x.arr + 2 * x.asize

/-- No cell belongs to both. -/
def Apart (x y : CB) : Prop := ∀ c, x.Owns c → ¬ y.Owns c

/-- The entries of `x` become `F`, and nothing else changes. -/
def Becomes (x : CB) (D : List Nat) (F : List Nat → Cx α) (m m' : Buf α) : Prop := x.Is D F m' ∧ ∀ c, ¬ x.Owns c → m' c = m c

/-- `x` is a new tensor at `q`, with entries `F`; nothing else changed. -/
def Fresh (x : CB) (q : Nat) (D : List Nat) (F : List Nat → Cx α) (m m' : Buf α) : Prop :=
  x.arr = q ∧ x.isView = false ∧ x.Is D F m' ∧ ∀ c, ¬ (q ≤ c ∧ c < q + 2 * D.prod) → m' c = m c

/-- The entries of a tensor of ATen. -/
def AT.Is (T : AT) (D : List Nat) (F : List Nat → Cx α) (m : Buf α) : Prop :=
  T.dims = D ∧ T.strides.length = D.length ∧ ∀ ix, InRange ix D → m (T.data + 2 * dot T.strides ix) = some (F ix).re ∧ m (T.data + (2 * dot T.strides ix + 1)) = some (F ix).im

end CB

end Cnine
