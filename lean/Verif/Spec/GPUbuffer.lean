import Verif.Model.GPUbuffer
import Verif.Spec.Minivec

/-! # What the buffers hold (containers/GPUbuffer.hpp:28-29, containers/AsyncGPUbuffer.hpp:28-30) -/

namespace Cnine.GB

open MV (Heap Blk Vec)

variable {α : Type _}

/-- The buffer is a block on the GPU with cells `c`. -/
def Has (h : Heap α) (b : Buffer) (c : List (Option α)) : Prop :=
  b.size = c.length ∧ ∃ p, b.arr = some p ∧ p < h.next ∧ h.blk p = some ⟨true, c⟩

/-- The buffer has the cells `c` on the host and `g` on the GPU. -/
def AHas (h : Heap α) (b : Async) (c g : List (Option α)) : Prop :=
  b.size = c.length ∧ b.size = g.length ∧
    ∃ p q, b.arr = some p ∧ b.arrg = some q ∧ p < h.next ∧ q < h.next ∧ h.blk p = some ⟨false, c⟩ ∧ h.blk q = some ⟨true, g⟩

/-- `c'` is `c` with the list `xs` written from cell `i` on. -/
def Written (c c' : List (Option α)) (i : Nat) (xs : List α) : Prop :=
  c'.length = c.length ∧ (∀ k (hk : k < xs.length), c'[i + k]? = some (some xs[k])) ∧
    ∀ j, j < i ∨ i + xs.length ≤ j → c'[j]? = c[j]?

end Cnine.GB
