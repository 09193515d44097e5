import Verif.Model.RtensorA
import Verif.Spec.Index
import Mathlib.Algebra.BigOperators.Group.List.Basic

/-!
# What a tensor of the old backend holds
-/

namespace Cnine

variable {α : Type}

namespace RA

/-- `x` is the tensor with sizes `D` and entries `f`, listed in row-major order in its array. -/
structure Is (x : RA) (D : List Nat) (f : List Nat → α) (m : Buf α) : Prop where
  ne : D ≠ []
  dims : x.dims = D
  strides : x.strides = D.tails.tail.map List.prod
  asize : x.asize = D.prod
  room : D.prod ≤ x.memsize
  has : ∀ ix, InRange ix D → m (x.arr + position D ix) = some (f ix)

/-- `c` is a cell of the tensor. -/
def Owns (x : RA) (c : Nat) : Prop := x.arr ≤ c ∧ c < x.arr + x.asize

/-- No cell belongs to both. -/
def Apart (x y : RA) : Prop := ∀ c, x.Owns c → ¬ y.Owns c

/-- The entries of `x` become `f`, and nothing else changes. -/
def Becomes (x : RA) (D : List Nat) (f : List Nat → α) (m m' : Buf α) : Prop := x.Is D f m' ∧ ∀ c, ¬ x.Owns c → m' c = m c

/-- The number of cells of the array of a new tensor with sizes `D`: `D.prod`, up to a multiple of 32. -/
def cells (D : List Nat) : Nat := if D.prod = 0 then 32 else (D.prod + 31) / 32 * 32

/-- No cell of `m` from `q` on, `n` of them, is in use. -/
def Free (m : Buf α) (q n : Nat) : Prop := ∀ c, q ≤ c → c < q + n → m c = none

/-- `x` is a new tensor at `q`, in free memory, with entries `f`; nothing else changed. -/
def Fresh (x : RA) (q : Nat) (D : List Nat) (f : List Nat → α) (m m' : Buf α) : Prop :=
  x.arr = q ∧ x.isView = false ∧ x.Is D f m' ∧ ∀ c, ¬ (q ≤ c ∧ c < q + cells D) → m' c = m c

end RA

end Cnine
