import Verif.Model.RtensorA

/-!
# The arrays of legacy/backendA/RtensorA.hpp: allocation, assignment, growth, release

A machine that runs programs on tensors kept in variables.  Memory is a list of blocks, one for each `new float[n]`; a released block stays in the list as `none`
and is not used again.  A pointer is a block and an offset.  `junk b i` is what a new block `b` holds at `i`.  On the CPU.
-/

namespace Cnine

variable {α : Type}

namespace RAM

/-- legacy/backendA/RtensorA.hpp:58-79: `dims`, `strides`, `asize`, `memsize`, `arr`, `is_view` (not `cst`, `nbu`, `dev`, `arrg`). -/
structure Obj where
  dims : List Nat
  strides : List Nat
  asize : Nat
  memsize : Nat
  ptr : Option (Nat × Nat)
  isView : Bool
deriving DecidableEq

/-- Blocks and variables: the memory that legacy/backendA/RtensorA.hpp:58-149 works on. -/
structure State (α : Type) where
  heap : List (Option (List α))
  vars : Nat → Option Obj

/-- `new float[n]`, legacy/backendA/RtensorA.hpp:142. -/
def alloc (junk : Nat → Nat → α) (h : List (Option (List α))) (n : Nat) : List (Option (List α)) × (Nat × Nat) :=
  (h ++ [some ((List.range n).map (junk h.length))], (h.length, 0))

/-- `delete[] p`, legacy/backendA/RtensorA.hpp:85-88. -/
def free (h : List (Option (List α))) : Option (Nat × Nat) → Res (List (Option (List α)))
  | none => .ok h
  | some (b, o) =>
    match h[b]? with
    | some (some _) => if o = 0 then .ok (h.set b none) else .ub
    | _ => .ub

/-- The `n` numbers at `p+i`, the source of `std::copy` in legacy/backendA/RtensorA.hpp:451-462. -/
def readN (h : List (Option (List α))) (p : Option (Nat × Nat)) (i n : Nat) : Res (List α) :=
  if n = 0 then .ok [] else
    match p with
    | none => .ub
    | some (b, o) =>
      match h[b]? with
      | some (some l) => if o + i + n ≤ l.length then .ok ((l.drop (o + i)).take n) else .ub
      | _ => .ub

/-- The numbers `v` are written at `p+i`, the destination of `std::copy` in legacy/backendA/RtensorA.hpp:451-462. -/
def writeN (h : List (Option (List α))) (p : Option (Nat × Nat)) (i : Nat) (v : List α) : Res (List (Option (List α))) :=
  if v.length = 0 then .ok h else
    match p with
    | none => .ub
    | some (b, o) =>
      match h[b]? with
      | some (some l) => if o + i + v.length ≤ l.length then .ok (h.set b (some (l.take (o + i) ++ v ++ l.drop (o + i + v.length)))) else .ub
      | _ => .ub

/-- `p+i` is one of the `n` cells from `q` on: what `std::copy` (legacy/backendA/RtensorA.hpp:451-462) forbids of its destination. -/
def inside (p q : Option (Nat × Nat)) (i n : Nat) : Bool :=
  match p, q with
  | some (b, o), some (b', o') => b = b' && o' ≤ o + i && o + i < o' + n
  | none, none => i < n
  | _, _ => false

/-- `std::copy(src,src+n,dst+i)`, legacy/backendA/RtensorA.hpp:451-462, 535-564, 620-658: the destination must not begin inside the source. -/
def copyN (h : List (Option (List α))) (src : Option (Nat × Nat)) (n : Nat) (dst : Option (Nat × Nat)) (i : Nat) : Res (List (Option (List α))) := do
  Res.need (!inside dst src i n)
  let v ← readN h src 0 n
  writeN h dst i v

/-- The variable `v` holds an object (the arguments of legacy/backendA/RtensorA.hpp:451-578). -/
def look (s : State α) (v : Nat) : Res Obj :=
  match s.vars v with
  | some o => .ok o
  | none => .ub

/-- The variable `v` is not in use (the result of the constructors, legacy/backendA/RtensorA.hpp:128-149, 451-515). -/
def unused (s : State α) (v : Nat) : Res Unit := Res.need (s.vars v).isNone

/-- A variable is given a value (legacy/backendA/RtensorA.hpp:58-79, the fields are written). -/
def put (s : State α) (v : Nat) (o : Option Obj) : State α := { s with vars := fun w => if w = v then o else s.vars w }

/-- legacy/backendA/RtensorA.hpp:128-149, 337-341: a tensor with entries `f`. -/
def new (junk : Nat → Nat → α) (s : State α) (v : Nat) (dims : List Nat) (f : Nat → α) : Res (State α) := do
  unused s v
  let R ← RA.noalloc 0 dims
  let (h, p) := alloc junk s.heap (max R.memsize 1)
  let h ← writeN h (some p) 0 ((List.range R.asize).map f)
  .ok (put { s with heap := h } v (some ⟨R.dims, R.strides, R.asize, R.memsize, some p, false⟩))

/-- legacy/backendA/RtensorA.hpp:237-249, 451-462, the copy constructor. -/
def copy (junk : Nat → Nat → α) (s : State α) (v w : Nat) : Res (State α) := do
  unused s v
  let x ← look s w
  let (h, p) := alloc junk s.heap (max x.memsize 1)
  let h ← copyN h x.ptr x.asize (some p) 0
  .ok (put { s with heap := h } v (some ⟨x.dims, x.strides, x.asize, x.memsize, some p, false⟩))

/-- legacy/backendA/RtensorA.hpp:499-506, the constructor of a view. -/
def view (s : State α) (v w : Nat) : Res (State α) := do
  unused s v
  let x ← look s w
  .ok (put s v (some { x with isView := true }))

/-- legacy/backendA/RtensorA.hpp:1752-1765 `view_of_slice0(i)`. -/
def slice0 (s : State α) (v w i : Nat) : Res (State α) := do
  unused s v
  let x ← look s w
  let dims ← gvRemove x.dims 0
  let d ← Res.get x.dims 0
  Res.need (d ≠ 0)
  let t ← Res.get x.strides 0
  .ok (put s v (some ⟨dims, x.strides.drop 1, x.asize / d, x.memsize / d, x.ptr.map fun p => (p.1, p.2 + t * i), true⟩))

/-- legacy/backendA/RtensorA.hpp:508-515, the move constructor. -/
def move (s : State α) (v w : Nat) : Res (State α) := do
  unused s v
  let x ← look s w
  .ok (put (put s v (some x)) w (some { x with ptr := none }))

/-- legacy/backendA/RtensorA.hpp:535-564 `operator=(const RtensorA& x)`: the fields are replaced before `asize` is compared; what follows reads `x` anew, which may be
the same tensor. -/
def assign (junk : Nat → Nat → α) (s : State α) (v w : Nat) : Res (State α) := do
  let r ← look s v
  let x ← look s w
  let s := put s v (some { r with dims := x.dims, strides := x.strides, memsize := max x.memsize 1 })
  let r ← look s v
  let x ← look s w
  if r.isView then do
    Res.assrt (r.asize = x.asize)
    let h ← copyN s.heap x.ptr r.asize r.ptr 0
    .ok { s with heap := h }
  else do
    let h ← free s.heap r.ptr
    let (h, p) := alloc junk h r.memsize
    let s := put { s with heap := h } v (some { r with asize := x.asize, ptr := some p })
    let x ← look s w
    let h ← copyN s.heap x.ptr x.asize (some p) 0
    .ok { s with heap := h }

/-- legacy/backendA/RtensorA.hpp:567-578 `operator=(RtensorA&& x)`. -/
def moveAssign (s : State α) (v w : Nat) : Res (State α) := do
  let r ← look s v
  let x ← look s w
  let h ← (if r.isView then .ok s.heap else free s.heap r.ptr)
  let s := put { s with heap := h } v (some x)
  let x ← look s w
  .ok (put s w (some { x with ptr := none }))

/-- legacy/backendA/RtensorA.hpp:616-618 `capacity0()`. -/
def capacity0 (o : Obj) : Res Nat := do
  let t ← Res.get o.strides 0
  Res.need (t ≠ 0)
  .ok (o.memsize / t)

/-- legacy/backendA/RtensorA.hpp:620-637 `reserve0(n)`. -/
def reserve0 (junk : Nat → Nat → α) (h : List (Option (List α))) (o : Obj) (n : Nat) : Res (List (Option (List α)) × Obj) := do
  let c ← capacity0 o
  if n ≤ c then .ok (h, o) else do
    Res.assrt (!o.isView)
    let t ← Res.get o.strides 0
    let (h, p) := alloc junk h (max (n * t) 1)
    let h ← copyN h o.ptr o.asize (some p) 0
    let h ← free h o.ptr
    .ok (h, { o with memsize := n * t, ptr := some p })

/-- legacy/backendA/RtensorA.hpp:639-658 `push_back_slice0(x)`. -/
def push (junk : Nat → Nat → α) (s : State α) (v w : Nat) : Res (State α) := do
  let o ← look s v
  let x ← look s w
  Res.assrt (!o.isView)
  Res.assrt (o.dims.length = x.dims.length + 1)
  Res.assrt ((List.range x.dims.length).all fun i => o.dims.getD (i + 1) 0 = x.dims.getD i 0)
  let c ← capacity0 o
  let (h, o) ← (if c = 0 then reserve0 junk s.heap o 1 else .ok (s.heap, o))
  let c ← capacity0 o
  let d ← Res.get o.dims 0
  let (h, o) ← (if c < d + 1 then reserve0 junk h o (2 * d) else .ok (h, o))
  let t ← Res.get o.strides 0
  let h ← copyN h x.ptr x.asize o.ptr (d * t)
  .ok (put { s with heap := h } v (some { o with asize := o.asize + x.asize, dims := o.dims.set 0 (d + 1) }))

/-- legacy/backendA/RtensorA.hpp:274-285 `reshape(dims)`. -/
def reshape (s : State α) (v : Nat) (dims : List Nat) : Res (State α) := do
  let o ← look s v
  Res.assrt (Cnine.asize dims = o.asize)
  let R ← RA.noalloc 0 dims
  .ok (put s v (some { o with dims := R.dims, strides := R.strides, asize := R.asize, memsize := R.memsize }))

/-- legacy/backendA/RtensorA.hpp:985-991: `arr[i]=a`, the cell `i` of the array. -/
def setCell (s : State α) (v i : Nat) (a : α) : Res (State α) := do
  let o ← look s v
  let h ← writeN s.heap o.ptr i [a]
  .ok { s with heap := h }

/-- legacy/backendA/RtensorA.hpp:85-88, the destructor. -/
def destroy (s : State α) (v : Nat) : Res (State α) := do
  let o ← look s v
  let h ← (if o.isView then .ok s.heap else free s.heap o.ptr)
  .ok (put { s with heap := h } v none)

/-- What a program may do with the functions of legacy/backendA/RtensorA.hpp:85-658. -/
inductive Cmd (α : Type)
  | new (v : Nat) (dims : List Nat) (f : Nat → α)
  | copy (v w : Nat)
  | view (v w : Nat)
  | slice0 (v w i : Nat)
  | move (v w : Nat)
  | assign (v w : Nat)
  | moveAssign (v w : Nat)
  | reserve (v n : Nat)
  | push (v w : Nat)
  | reshape (v : Nat) (dims : List Nat)
  | setCell (v i : Nat) (a : α)
  | destroy (v : Nat)

/-- One command (legacy/backendA/RtensorA.hpp:85-88, 128-149, 274-285, 451-578, 616-658, 1752-1765). -/
def step (junk : Nat → Nat → α) (s : State α) : Cmd α → Res (State α)
  | .new v dims f => new junk s v dims f
  | .copy v w => copy junk s v w
  | .view v w => view s v w
  | .slice0 v w i => slice0 s v w i
  | .move v w => move s v w
  | .assign v w => assign junk s v w
  | .moveAssign v w => moveAssign s v w
  | .reserve v n => do
    let o ← look s v
    let (h, o) ← reserve0 junk s.heap o n
    .ok (put { s with heap := h } v (some o))
  | .push v w => push junk s v w
  | .reshape v dims => reshape s v dims
  | .setCell v i a => setCell s v i a
  | .destroy v => destroy s v

/-- A program: commands (legacy/backendA/RtensorA.hpp:85-658) one after the other. -/
def run (junk : Nat → Nat → α) (s : State α) (p : List (Cmd α)) : Res (State α) := Res.forM p s (step junk)

/-- Nothing allocated, before the first constructor (legacy/backendA/RtensorA.hpp:128-149). -/
def start : State α := ⟨[], fun _ => none⟩

end RAM

end Cnine
