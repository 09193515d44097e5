import Verif.Spec.Gpu
import Verif.Spec.CView

/-!
# Launches whose threads write a real and an imaginary part
-/

namespace Cnine

variable {α ι : Type}

namespace GpuC

/-- The cells `c i` and `c' i` for the `i` in `D` hold the real and the imaginary part of `V i`, all others are unchanged. -/
def Upd2 (m m' : Buf α) (D : ι → Prop) (c c' : ι → Nat) (V : ι → Cx α) : Prop :=
  (∀ i, D i → m' (c i) = some (V i).re ∧ m' (c' i) = some (V i).im) ∧ ∀ p, (∀ i, D i → p ≠ c i ∧ p ≠ c' i) → m' p = m p

/-- The cells of the entries in `D` are different, and so are the two parts of an entry. -/
structure Own2 (D : ι → Prop) (c c' : ι → Nat) : Prop where
  re : ∀ i j, D i → D j → c i = c j → i = j
  im : ∀ i j, D i → D j → c' i = c' j → i = j
  ne : ∀ i j, D i → D j → c i ≠ c' j

end GpuC

end Cnine
