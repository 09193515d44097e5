import Verif.Model.Minivec

/-!
# Model of the memory of containers/int_pool.hpp: copies, moves, devices and the end

On the heap of `Model/Minivec` (CUDA build).  The lists in the memory are the subject of other models; here the cells are just cells,
some of them perhaps not yet written.  Sizes are natural numbers; the constructor makes at least two cells.
-/

namespace Cnine.IPM

open MV (Heap)

/-- containers/int_pool.hpp:25-29. -/
structure Pool where
  n : Nat
  last : Int
  memsize : Nat
  arr : Option Nat
  dev : Int
  deriving DecidableEq, Repr

/-- containers/int_pool.hpp:35-41. -/
def mk (n m : Nat) (h : Heap Int) : Heap Int × Pool :=
  ((MV.alloc false (n + m + 2) h).put h.next (some ⟨false, some (n : Int) :: some ((n : Int) + 2) :: List.replicate (n + m) none⟩),
    ⟨n, -1, n + m + 2, some h.next, 0⟩)

/-- containers/int_pool.hpp:31-33: `delete[]` on either side. -/
def destroy (x : Pool) (h : Heap Int) : Res (Heap Int) := MV.free false x.arr h

/-- containers/int_pool.hpp:47-51; `dev` is the default 0 of line 29. -/
def copy (x : Pool) (h : Heap Int) : Res (Heap Int × Pool) := do
  let h' ← MV.copyCells false false x.arr (some h.next) x.memsize (MV.alloc false x.memsize h)
  .ok (h', ⟨x.n, x.last, x.memsize, some h.next, 0⟩)

/-- containers/int_pool.hpp:53-57: the new pool and what `x` is afterwards. -/
def move (x : Pool) : Pool × Pool := (⟨x.n, x.last, x.memsize, x.arr, 0⟩, { x with arr := none })

/-- containers/int_pool.hpp:67-74 and 75-81: to the other side. -/
def carry (sg dg : Bool) (dev : Int) (x : Pool) (h : Heap Int) : Res (Heap Int × Pool) := do
  let h1 ← MV.copyCells sg dg x.arr (some h.next) x.memsize (MV.alloc dg x.memsize h)
  let h2 ← MV.free sg x.arr h1
  .ok (h2, { x with arr := some h.next, dev := dev })

/-- containers/int_pool.hpp:65-82 `move_to_device`. -/
def moveTo (d : Int) (x : Pool) (h : Heap Int) : Res (Heap Int × Pool) :=
  if x.dev = d then .ok (h, x)
  else if x.dev = 0 ∧ d = 1 then carry false true 1 x h
  else if x.dev = 1 ∧ d = 0 then carry true false 0 x h
  else .ok (h, x)

end Cnine.IPM
