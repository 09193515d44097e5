import Verif.Model.Basic

/-!
# Model of containers/minivec.hpp

A vector owns one block of memory, on the host (`new[]`/`delete[]`) or on the GPU (`cudaMalloc`/`cudaFree`).  The heap maps the
address of a block to the side it lies on and its cells; a cell not yet written holds nothing.  Blocks have fresh addresses and
allocation does not fail.  Reading or writing a GPU block from the host, freeing a block with the function of the other side,
freeing it twice and copying to or from a block on the wrong side are all undefined (`cudaFree` and `cudaMemcpy` in fact report
an error there, and `CUDA_SAFE` ends the program, include/Cnine_base_CUDA.hpp:18-24).  Only the build with CUDA is modelled.
The lengths are natural numbers.
-/

namespace Cnine.MV

/-- What `new TYPE[n]` and `cudaMalloc` return: the side and the cells (containers/minivec.hpp:45, 47). -/
structure Blk (α : Type _) where
  gpu : Bool
  cells : List (Option α)

/-- The blocks alive, by address; `next` is above all addresses used (containers/minivec.hpp:34-35, 45-47). -/
structure Heap (α : Type _) where
  next : Nat
  blk : Nat → Option (Blk α)

/-- containers/minivec.hpp:28-31. -/
structure Vec where
  arr : Option Nat
  size : Nat
  dev : Int
  deriving DecidableEq, Repr

variable {α : Type _}

/-- No blocks (state before any containers/minivec.hpp:42-48). -/
def Heap.empty : Heap α := ⟨0, fun _ => none⟩

/-- One block changed (containers/minivec.hpp:126, 130). -/
def Heap.put (h : Heap α) (p : Nat) (b : Option (Blk α)) : Heap α := { h with blk := fun q => if q = p then b else h.blk q }

/-- `new TYPE[max(n,1)]`, `cudaMalloc(…)` (containers/minivec.hpp:45, 47, 93, 100). -/
def alloc (gpu : Bool) (n : Nat) (h : Heap α) : Heap α :=
  { next := h.next + 1, blk := (h.put h.next (some ⟨gpu, List.replicate (max n 1) none⟩)).blk }

/-- `delete[] p`, `cudaFree(p)` (containers/minivec.hpp:34-35, 95, 102). -/
def free (gpu : Bool) (p : Option Nat) (h : Heap α) : Res (Heap α) :=
  match p with
  | none => .ok h
  | some p =>
    match h.blk p with
    | none => .ub
    | some b => if b.gpu = gpu then .ok (h.put p none) else .ub

/-- `std::copy(s,s+n,d)` and `cudaMemcpy(d,s,n*sizeof(TYPE),…)` (containers/minivec.hpp:62-64, 82-87, 94, 101); `sg` and `dg` tell
on which sides the source and the destination have to lie. -/
def copyCells (sg dg : Bool) (s d : Option Nat) (n : Nat) (h : Heap α) : Res (Heap α) :=
  if n = 0 then .ok h else
  match s, d with
  | some s, some d =>
    match h.blk s, h.blk d with
    | some a, some b =>
      if a.gpu = sg ∧ b.gpu = dg ∧ n ≤ a.cells.length ∧ n ≤ b.cells.length then
        .ok (h.put d (some ⟨b.gpu, a.cells.take n ++ b.cells.drop n⟩))
      else .ub
    | _, _ => .ub
  | _, _ => .ub

/-- containers/minivec.hpp:42-48. -/
def mk (n : Nat) (dev : Int) (h : Heap α) : Heap α × Vec :=
  (alloc (decide (dev ≠ 0)) n h, ⟨some h.next, n, dev⟩)

/-- containers/minivec.hpp:33-36. -/
def destroy (v : Vec) (h : Heap α) : Res (Heap α) := free (decide (v.dev ≠ 0)) v.arr h

/-- containers/minivec.hpp:60-65. -/
def copy (x : Vec) (h : Heap α) : Res (Heap α × Vec) := do
  let (h, v) := mk x.size x.dev h
  let h ← if v.dev = 0 then copyCells false false x.arr v.arr v.size h else copyCells true true x.arr v.arr v.size h
  .ok (h, v)

/-- containers/minivec.hpp:67-71: the new vector and what `x` is afterwards; `dev` of the new one is the default 0 of line 31. -/
def move (x : Vec) : Vec × Vec := (⟨x.arr, x.size, 0⟩, { x with arr := none })

/-- containers/minivec.hpp:82-83: to a vector on the host. -/
def toHost (x v : Vec) (h : Heap α) : Res (Heap α) :=
  if x.dev = 0 then copyCells false false x.arr v.arr v.size h
  else if x.dev = 1 then copyCells true false x.arr v.arr v.size h else .ok h

/-- containers/minivec.hpp:86-87: to a vector on the GPU. -/
def toGpu (x v : Vec) (h : Heap α) : Res (Heap α) :=
  if x.dev = 0 then copyCells false true x.arr v.arr v.size h
  else if x.dev = 1 then copyCells true true x.arr v.arr v.size h else .ok h

/-- containers/minivec.hpp:79-89. -/
def transport (x : Vec) (dev : Int) (h : Heap α) : Res (Heap α × Vec) := do
  let (h, v) := mk x.size dev h
  let h ← if v.dev = 0 then toHost x v h else if v.dev = 1 then toGpu x v h else .ok h
  .ok (h, v)

/-- containers/minivec.hpp:91-107; at most one of the two branches is taken. -/
def moveTo (dev : Int) (v : Vec) (h : Heap α) : Res (Heap α × Vec) :=
  if dev = 0 ∧ v.dev = 1 then do
    let t := h.next
    let h ← copyCells true false v.arr (some t) v.size (alloc false v.size h)
    let h ← free true v.arr h
    .ok (h, ⟨some t, v.size, dev⟩)
  else if dev = 1 ∧ v.dev = 0 then do
    let t := h.next
    let h ← copyCells false true v.arr (some t) v.size (alloc true v.size h)
    let h ← free false v.arr h
    .ok (h, ⟨some t, v.size, dev⟩)
  else .ok (h, { v with dev := dev })

/-- The block a host access goes to (containers/minivec.hpp:117-131). -/
def host (v : Vec) (h : Heap α) : Res (Nat × List (Option α)) :=
  match v.arr with
  | none => .ub
  | some p =>
    match h.blk p with
    | none => .ub
    | some b => if b.gpu then .ub else .ok (p, b.cells)

/-- containers/minivec.hpp:117-119. -/
def get (v : Vec) (i : Int) (h : Heap α) : Res α := do
  let (_, c) ← host v h
  if i < 0 then .ub else
  match c[i.toNat]? with
  | some (some a) => .ok a
  | _ => .ub

/-- containers/minivec.hpp:125-127. -/
def set (v : Vec) (i : Int) (a : α) (h : Heap α) : Res (Heap α) := do
  let (p, c) ← host v h
  if 0 ≤ i ∧ i.toNat < c.length then .ok (h.put p (some ⟨false, c.set i.toNat (some a)⟩)) else .ub

/-- containers/minivec.hpp:129-131. -/
def inc [Add α] (v : Vec) (i : Int) (a : α) (h : Heap α) : Res (Heap α) := do
  let b ← get v i h
  set v i (b + a) h

/-- `std::fill(arr,arr+n,v)` (containers/minivec.hpp:52). -/
def fillCells (v : Vec) (a : α) (h : Heap α) : Res (Heap α) := do
  if v.size = 0 then .ok h else
  let (p, c) ← host v h
  if v.size ≤ c.length then .ok (h.put p (some ⟨false, List.replicate v.size (some a) ++ c.drop v.size⟩)) else .ub

/-- containers/minivec.hpp:50-54: line 51 passes the member `dev`, which is not set yet, instead of the argument; `junk` is the
number it happens to hold. -/
def filled (n : Nat) (a : α) (dev junk : Int) (h : Heap α) : Res (Heap α × Vec) := do
  let (h, v) := mk n junk h
  let h ← fillCells v a h
  moveTo dev v h

/-! ### Programs -/

/-- The vectors alive, by number, and the heap (containers/minivec.hpp:28-31). -/
structure St (α : Type _) where
  heap : Heap α
  vecs : Nat → Option Vec
  count : Nat

/-- The calls a program makes: containers/minivec.hpp:42-48, 60-65, 67-71, 79-89, 91-107, 125-131, 33-36. -/
inductive Op (α : Type _) where
  | mk (n : Nat) (dev : Int)
  | copy (i : Nat)
  | move (i : Nat)
  | transport (i : Nat) (dev : Int)
  | moveTo (i : Nat) (dev : Int)
  | set (i : Nat) (k : Int) (a : α)
  | inc (i : Nat) (k : Int) (a : α)
  | destroy (i : Nat)

/-- One vector changed (containers/minivec.hpp:96, 103, 105). -/
def St.put (s : St α) (i : Nat) (v : Option Vec) : Nat → Option Vec := fun j => if j = i then v else s.vecs j

/-- A new vector (containers/minivec.hpp:42-89). -/
def St.add (s : St α) (h : Heap α) (v : Vec) : St α := ⟨h, s.put s.count (some v), s.count + 1⟩

/-- The vector numbered `i`; naming one that is not alive is undefined (containers/minivec.hpp:33-36). -/
def St.vec (s : St α) (i : Nat) : Res Vec := match s.vecs i with | some v => .ok v | none => .ub

/-- One call (containers/minivec.hpp:33-131). -/
def step [Add α] (s : St α) : Op α → Res (St α)
  | .mk n d => .ok (s.add (mk n d s.heap).1 (mk n d s.heap).2)
  | .copy i => do
    let r ← copy (← s.vec i) s.heap
    .ok (s.add r.1 r.2)
  | .move i => do
    let x ← s.vec i
    .ok ({ s with vecs := s.put i (some (move x).2) }.add s.heap (move x).1)
  | .transport i d => do
    let r ← transport (← s.vec i) d s.heap
    .ok (s.add r.1 r.2)
  | .moveTo i d => do
    let r ← moveTo d (← s.vec i) s.heap
    .ok ⟨r.1, s.put i (some r.2), s.count⟩
  | .set i k a => do
    let h ← set (← s.vec i) k a s.heap
    .ok { s with heap := h }
  | .inc i k a => do
    let h ← inc (← s.vec i) k a s.heap
    .ok { s with heap := h }
  | .destroy i => do
    let h ← destroy (← s.vec i) s.heap
    .ok ⟨h, s.put i none, s.count⟩

end Cnine.MV
