import Verif.Spec.Einsum

/-! # Specification vocabulary for the einsum functors -/

namespace Cnine
namespace EinsumFn

/-- The operand as the string says: with a star at the end it is conjugated. -/
def plainStar (b : Bool) (s : List Char) : List Char := if b then s ++ ['*'] else s

/-- `xs,ys->rs`. -/
def written (xs ys rs : List Char) : List Char := xs ++ ',' :: ys ++ '-' :: '>' :: rs

/-- Letters that may name an index: not the separators, and not the letter the functors use as a placeholder. -/
def Names (s : List Char) : Prop := ∀ c ∈ s, c ≠ ',' ∧ c ≠ '>' ∧ c ≠ '*' ∧ c ≠ 'x'

instance (s : List Char) : Decidable (Names s) := by unfold Names; infer_instance

end EinsumFn
end Cnine
