import Verif.Model.Minivec

/-!
# Model of containers/GPUbuffer.hpp and containers/AsyncGPUbuffer.hpp

Built on the heap of `Model/Minivec`.  Memory from `cudaHostAlloc` is a block on the host, which `cudaFreeHost` gives back.  Copies
with a stream are finished when the call returns.  An `int` compared with a `size_t` is converted: a negative number becomes a
very large one.  The device argument is kept only where the code looks at it.
-/

namespace Cnine.GB

open MV (Heap Blk Vec)

variable {α : Type _}

/-- `new`, `cudaMalloc`, `cudaHostAlloc` of `n ≥ 1` cells (containers/GPUbuffer.hpp:44, 52; containers/AsyncGPUbuffer.hpp:46-48, 57-58). -/
def alloc (gpu : Bool) (n : Nat) (h : Heap α) : Heap α :=
  { next := h.next + 1, blk := (h.put h.next (some ⟨gpu, List.replicate n none⟩)).blk }

/-- `std::max(1,n)` (containers/GPUbuffer.hpp:43, 51; containers/AsyncGPUbuffer.hpp:45, 56). -/
def atLeast1 (n : Int) : Nat := (max 1 n).toNat

/-- containers/GPUbuffer.hpp:28-29 (`dev` is always 1). -/
structure Buffer where
  arr : Option Nat
  size : Nat
  deriving DecidableEq, Repr

/-- containers/GPUbuffer.hpp:40. -/
def empty : Buffer := ⟨none, 0⟩

/-- containers/GPUbuffer.hpp:42-46. -/
def mk (n : Int) (h : Heap α) : Heap α × Buffer := (alloc true (atLeast1 n) h, ⟨some h.next, atLeast1 n⟩)

/-- containers/GPUbuffer.hpp:32-34. -/
def destroy (b : Buffer) (h : Heap α) : Res (Heap α) := MV.free true b.arr h

/-- containers/GPUbuffer.hpp:48-54. -/
def reset (n : Int) (b : Buffer) (h : Heap α) : Res (Heap α × Buffer) :=
  if 0 ≤ n ∧ n ≤ b.size then .ok (h, b) else do
    let h ← MV.free true b.arr h
    .ok (mk n h)

/-- The cells of a host vector, as `cudaMemcpy` and `std::copy` read them (containers/GPUbuffer.hpp:69, containers/AsyncGPUbuffer.hpp:83). -/
def source (v : Vec) (h : Heap α) : Res (List (Option α)) := do
  if v.size = 0 then .ok [] else
  let r ← MV.host v h
  if v.size ≤ r.2.length then .ok (r.2.take v.size) else .ub

/-- Writing cells at `arr+i` (containers/GPUbuffer.hpp:69, 76; containers/AsyncGPUbuffer.hpp:83, 90, 96). -/
def writeAt (gpu : Bool) (p : Option Nat) (i : Int) (src : List (Option α)) (h : Heap α) : Res (Heap α) :=
  if src = [] then .ok h else
  match p with
  | none => .ub
  | some p =>
    match h.blk p with
    | none => .ub
    | some b =>
      if b.gpu = gpu ∧ 0 ≤ i ∧ i.toNat + src.length ≤ b.cells.length then
        .ok (h.put p (some ⟨b.gpu, b.cells.take i.toNat ++ src ++ b.cells.drop (i.toNat + src.length)⟩))
      else .ub

/-- The test `i+n<=_size` in `size_t` (containers/GPUbuffer.hpp:68, 75; containers/AsyncGPUbuffer.hpp:82, 89, 95). -/
def fits (i : Int) (n size : Nat) : Bool := decide (0 ≤ i + n ∧ i + n ≤ size)

/-- containers/GPUbuffer.hpp:66-70 (80-85 with a stream). -/
def push (b : Buffer) (i : Int) (v : Vec) (h : Heap α) : Res (Heap α) := do
  Res.assrt (v.dev = 0)
  Res.assrt (fits i v.size b.size)
  let src ← source v h
  writeAt true b.arr i src h

/-- containers/AsyncGPUbuffer.hpp:28-30 (`dev` is always 1). -/
structure Async where
  arr : Option Nat
  arrg : Option Nat
  size : Nat
  deriving DecidableEq, Repr

/-- containers/AsyncGPUbuffer.hpp:42. -/
def Async.empty : Async := ⟨none, none, 0⟩

/-- containers/AsyncGPUbuffer.hpp:57-58: the two new blocks. -/
def Async.fresh (n : Int) (h : Heap α) : Heap α × Async :=
  (alloc true (atLeast1 n) (alloc false (atLeast1 n) h), ⟨some h.next, some (h.next + 1), atLeast1 n⟩)

/-- containers/AsyncGPUbuffer.hpp:44-50: the block of line 46 is forgotten in line 47. -/
def Async.mk' (n : Int) (h : Heap α) : Heap α × Async := Async.fresh n (alloc false (atLeast1 n) h)

/-- containers/AsyncGPUbuffer.hpp:33-36. -/
def Async.destroy (b : Async) (h : Heap α) : Res (Heap α) := do
  let h ← MV.free false b.arr h
  MV.free true b.arrg h

/-- containers/AsyncGPUbuffer.hpp:52-60 (`reset`, 66-68, is the same). -/
def Async.resize (n dev : Int) (b : Async) (h : Heap α) : Res (Heap α × Async) :=
  if dev = 1 ∧ n = b.size then .ok (h, b) else do
    let h ← b.destroy h
    .ok (Async.fresh n h)

/-- containers/AsyncGPUbuffer.hpp:62-64. -/
def Async.minSize (n dev : Int) (b : Async) (h : Heap α) : Res (Heap α × Async) :=
  if (0 ≤ n ∧ n < b.size) ∨ dev ≠ 1 then b.resize n dev h else .ok (h, b)

/-- containers/AsyncGPUbuffer.hpp:80-84. -/
def Async.push (b : Async) (i : Int) (v : Vec) (h : Heap α) : Res (Heap α) := do
  Res.assrt (v.dev = 0)
  Res.assrt (fits i v.size b.size)
  let src ← source v h
  writeAt false b.arr i src h

/-- containers/AsyncGPUbuffer.hpp:100-102. -/
def Async.sync (b : Async) (h : Heap α) : Res (Heap α) := MV.copyCells false true b.arr b.arrg b.size h

end Cnine.GB
