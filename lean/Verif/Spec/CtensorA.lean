import Verif.Model.CtensorA
import Verif.Spec.RtensorA

/-!
# What a complex tensor of the old backend holds
-/

namespace Cnine

variable {α : Type}

namespace CA

/-- `x` is the tensor with sizes `D` and entries `F`, whose real and imaginary parts are listed in row-major order in two arrays with no common cell. -/
structure Is (x : CA) (D : List Nat) (F : List Nat → Cx α) (m : Buf α) : Prop where
  ne : D ≠ []
  dims : x.dims = D
  strides : x.strides = D.tails.tail.map List.prod
  asize : x.asize = D.prod
  room : D.prod ≤ x.cst
  has : ∀ ix, InRange ix D → m (x.arr + position D ix) = some (F ix).re ∧ m (x.arrc + position D ix) = some (F ix).im
  apart : ∀ i j, i < D.prod → j < D.prod → x.arr + i ≠ x.arrc + j

/-- `c` is a cell of the tensor. -/
def Owns (x : CA) (c : Nat) : Prop := (x.arr ≤ c ∧ c < x.arr + x.asize) ∨ (x.arrc ≤ c ∧ c < x.arrc + x.asize)

/-- No cell belongs to both. -/
def Apart (x y : CA) : Prop := ∀ c, x.Owns c → ¬ y.Owns c

/-- Both tensors have the same arrays. -/
def Same (x y : CA) : Prop := x.arr = y.arr ∧ x.arrc = y.arrc

/-- The entries of `x` become `F`, and nothing else changes. -/
def Becomes (x : CA) (D : List Nat) (F : List Nat → Cx α) (m m' : Buf α) : Prop := x.Is D F m' ∧ ∀ c, ¬ x.Owns c → m' c = m c

/-- `x` is a new tensor at `q`, in free memory, with entries `F`; nothing else changed. -/
def Fresh (x : CA) (q : Nat) (D : List Nat) (F : List Nat → Cx α) (m m' : Buf α) : Prop :=
  x.arr = q ∧ x.isView = false ∧ x.Is D F m' ∧ ∀ c, ¬ (q ≤ c ∧ c < q + 2 * RA.cells D) → m' c = m c

end CA

end Cnine
