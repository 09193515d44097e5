import Verif.Spec.Spaces
import Mathlib.Algebra.Field.Defs

/-!
# Inner products with a conjugation

Written without the model.  For real numbers the conjugation is the identity.
-/

namespace Cnine
namespace TV

open Finset

variable {α : Type}

/-- Inner product of two vectors of length `n`; the first one is conjugated. -/
def ipc [CommRing α] (conj : α → α) (n : Nat) (f g : Nat → α) : α := ∑ k ∈ range n, conj (f k) * g k

/-- `conj` is a conjugation with a definite inner product and `root` takes the square roots of the squared lengths. -/
structure Norms [CommRing α] (conj root : α → α) : Prop where
  add : ∀ a b, conj (a + b) = conj a + conj b
  mul : ∀ a b, conj (a * b) = conj a * conj b
  one : conj 1 = 1
  invol : ∀ a, conj (conj a) = a
  pos : ∀ n f, ipc conj n f f = 0 → ∀ k, k < n → f k = 0
  real : ∀ n f, conj (root (ipc conj n f f)) = root (ipc conj n f f)
  sq : ∀ n f, root (ipc conj n f f) * root (ipc conj n f f) = ipc conj n f f

/-- The first `j` vectors are of length one and orthogonal to each other. -/
def Unit [CommRing α] (conj : α → α) (n j : Nat) (B : Nat → Nat → α) : Prop :=
  ∀ a b, a < j → b < j → ipc conj n (B a) (B b) = if a = b then 1 else 0

/-- No vector is a combination of those before it. -/
def Independent [CommRing α] (n N : Nat) (g : Nat → Nat → α) : Prop :=
  ∀ i, i < N → ∀ c : Nat → α, ∃ k, k < n ∧ g i k ≠ Space.comb i c g k

end TV
end Cnine
