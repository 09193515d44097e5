import Verif.Model.CtensorArrayA
import Verif.Spec.RtensorArrayA
import Verif.Spec.CtensorA

/-!
# What an array of complex tensors of the old backend holds
-/

namespace Cnine

variable {α : Type}

namespace CAA

open RA (cells)

/-- `X` is the array with sizes `A` of tensors with sizes `D`; the tensor at `ia` has entries `F ia`.  Real and imaginary parts are arrays with no common cell. -/
structure Is (X : CAA) (A D : List Nat) (F : List Nat → List Nat → Cx α) (m : Buf α) : Prop where
  re : X.re.Is A D (fun ia id => (F ia id).re) m
  im : X.im.Is A D (fun ia id => (F ia id).im) m
  apart : ∀ c, X.re.Owns c → ¬ X.im.Owns c

/-- `c` is in the memory of the array, the room between tensors included. -/
def Owns (X : CAA) (c : Nat) : Prop := X.re.Owns c ∨ X.im.Owns c

/-- The tensors of `X` become `F`, and nothing outside the array changes. -/
def Becomes (X : CAA) (A D : List Nat) (F : List Nat → List Nat → Cx α) (m m' : Buf α) : Prop := X.Is A D F m' ∧ ∀ c, ¬ X.Owns c → m' c = m c

/-- `X` is a new array at `q`; nothing else changed. -/
structure Fresh (X : CAA) (q : Nat) (A D : List Nat) (F : List Nat → List Nat → Cx α) (m m' : Buf α) : Prop where
  arr : X.re.base.arr = q
  own : X.re.base.isView = false
  k : X.re.k = some D.length
  nbu : X.re.nbu = -1
  is : X.Is A D F m'
  rest : ∀ c, ¬ (q ≤ c ∧ c < q + 2 * RAA.room A D) → m' c = m c

end CAA

end Cnine
