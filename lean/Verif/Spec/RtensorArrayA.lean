import Verif.Model.RtensorArrayA
import Verif.Spec.RtensorA

/-!
# What an array of tensors of the old backend holds
-/

namespace Cnine

variable {α : Type}

namespace RAA

open RA (cells)

/-- `X` is the array with sizes `A` of tensors with sizes `D`; the tensor at `ia` has entries `f ia`, listed in row-major order.  The tensors lie one after the other, each with room for
`cells D` numbers. -/
structure Is (X : RAA) (A D : List Nat) (f : List Nat → List Nat → α) (m : Buf α) : Prop where
  neA : A ≠ []
  neD : D ≠ []
  dims : X.base.dims = A ++ D
  strides : X.base.strides = (A.tails.tail.map fun l => l.prod * cells D) ++ D.tails.tail.map List.prod
  total : X.base.asize = A.prod * cells D
  cst : A.prod ≠ 0 → X.base.cst = A.prod * cells D
  room : A.prod * cells D ≤ X.base.memsize
  adims : X.adims = A
  cdims : X.cdims = D
  astrides : X.astrides = A.tails.tail.map List.prod
  cstrides : X.cstrides = D.tails.tail.map List.prod
  aasize : X.aasize = A.prod
  asize : X.asize = D.prod
  cellstride : X.cellstride = cells D
  pad : ∀ c, c < A.prod * cells D → (m (X.base.arr + c)).isSome
  has : ∀ ia id, InRange ia A → InRange id D → m (X.base.arr + (position A ia * cells D + position D id)) = some (f ia id)

/-- `c` is in the memory of the array, the room between tensors included. -/
def Owns (X : RAA) (c : Nat) : Prop := X.base.Owns c

/-- The tensors of `X` become `f`, and nothing outside the array changes. -/
def Becomes (X : RAA) (A D : List Nat) (f : List Nat → List Nat → α) (m m' : Buf α) : Prop := X.Is A D f m' ∧ ∀ c, ¬ X.Owns c → m' c = m c

/-- The room that a new array takes. -/
def room (A D : List Nat) : Nat := if A.prod = 0 then 32 else A.prod * cells D

/-- `X` is a new array at `q`; nothing else changed. -/
structure Fresh (X : RAA) (q : Nat) (A D : List Nat) (f : List Nat → List Nat → α) (m m' : Buf α) : Prop where
  arr : X.base.arr = q
  own : X.base.isView = false
  k : X.k = some D.length
  nbu : X.nbu = -1
  is : X.Is A D f m'
  rest : ∀ c, ¬ (q ≤ c ∧ c < q + room A D) → m' c = m c

end RAA

end Cnine
