import Verif.Model.Basic
import Mathlib.Algebra.BigOperators.Group.Finset.Basic

/-!
# What broadcasting and reducing should do

Arrays of `n` blocks of `c` cells, in two parts (real and imaginary).
-/

namespace Cnine

variable {α : Type}

namespace Doubling

/-- The cells `a .. a+la` and `b .. b+lb` are different. -/
def Sep (a la b lb : Nat) : Prop := ∀ i j, i < la → j < lb → a + i ≠ b + j

/-- Block `i` of `n` blocks at `d` holds `f i`. -/
def Blocks (m : Buf α) (d c n : Nat) (f : Nat → Nat → α) : Prop := ∀ i j, i < n → j < c → m (d + (i * c + j)) = some (f i j)

/-- Only cells of the two ranges changed. -/
def Only2 (m m' : Buf α) (a la b lb : Nat) : Prop := ∀ p, (∀ i, i < la → p ≠ a + i) → (∀ i, i < lb → p ≠ b + i) → m' p = m p

end Doubling

end Cnine
