import Verif.Model.Scalar

/-!
# What a scalar holds
-/

namespace Cnine

variable {β : Type}

namespace Scal

/-- `x` is the number `f 0` (`n` is `none`), or the bundle of the numbers `f 0`, …, `f (k-1)`. -/
def Holds (x : Scal β) (n : Option Nat) (f : Nat → β) : Prop :=
  x.nbu = n ∧ match n with
    | none => x.val = some (f 0)
    | some k => ∃ l, x.arr = some l ∧ l.length = k ∧ ∀ i, i < k → l[i]? = some (some (f i))

end Scal

end Cnine
