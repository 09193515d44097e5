import Verif.Model.CtensorArrayB
import Verif.Spec.CtensorB

/-!
# What an array of complex tensors of backend B holds
-/

namespace Cnine

variable {α : Type}

namespace CBA

/-- `X` is the array with sizes `A` of tensors with sizes `C`; the tensor at `ia` has the entries `F ia`. -/
structure Is (X : CBA) (A C : List Nat) (F : List Nat → List Nat → Cx α) (m : Buf α) : Prop where
  ne : C ≠ []
  tensor : X.T.Is (A ++ C) (fun ix => F (ix.take A.length) (ix.drop A.length)) m
  ak : X.ak = A.length

/-- The tensors of `X` become `F`, and nothing outside the array changes. -/
def Becomes (X : CBA) (A C : List Nat) (F : List Nat → List Nat → Cx α) (m m' : Buf α) : Prop := X.Is A C F m' ∧ ∀ c, ¬ X.T.Owns c → m' c = m c

end CBA

end Cnine
