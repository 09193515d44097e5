import Verif.Model.PoolMem

/-!
# The memory of integer tensors

tensors/IntTensor.hpp for tensors of two dimensions `{n,k}` with `k≥1`: allocation, rows appended, copying, moving, views, the move to the GPU and the array on the GPU that is made
on demand.  Memory as in `PoolMem`: two lists of blocks, a released block is `none`, a cell never written is `none`.  `cap` is `capacity0()`, so `memsize` is `cap*k`.
-/

namespace Cnine

variable {α : Type}

namespace IntMem

open PoolMem (free source write readList block)

/-- tensors/IntTensor.hpp:39-47. -/
structure Obj where
  arr : Option Nat
  arrg : Option Nat
  cap : Nat
  n : Nat
  k : Nat
  gpu : Bool
  isView : Bool
deriving DecidableEq

/-- The blocks of the host and the GPU, and the variables that hold tensors (tensors/IntTensor.hpp:39-47). -/
structure State (α : Type) where
  host : List (Option (List (Option α)))
  dev : List (Option (List (Option α)))
  objs : List (Option Obj)

/-- The tensor in variable `v` (the `*this` and `x` of tensors/IntTensor.hpp:177-284). -/
def look (s : State α) (v : Nat) : Res Obj :=
  match s.objs[v]? with
  | some (some o) => .ok o
  | _ => .ub

/-- tensors/IntTensor.hpp:94-95: `IntTensor({0,k},fill_noalloc())`. -/
def make (s : State α) (k : Nat) : State α := { s with objs := s.objs ++ [some ⟨none, none, 0, 0, k, false, false⟩] }

/-- tensors/IntTensor.hpp:341-361 `reserve0(m)`.  It throws for a view. -/
def reserve0 (s : State α) (o : Obj) (m : Nat) : Res (State α × Obj) :=
  if m ≤ o.cap then .ok (s, o)
  else if o.isView then .throw
  else if o.gpu then do
    let l ← source s.dev o.arrg (o.n * o.k)
    let d ← free s.dev o.arrg
    .ok ({ s with dev := d ++ [some (block (m * o.k) l)] }, { o with arrg := some d.length, cap := m })
  else do
    let l ← source s.host o.arr (o.n * o.k)
    let h ← free s.host o.arr
    .ok ({ s with host := h ++ [some (block (m * o.k) l)] }, { o with arr := some h.length, cap := m })

/-- tensors/IntTensor.hpp:616-625 `push_back(x)`; the cells are written with `set`, which writes to `arr` (569-573). -/
def push (s : State α) (v : Nat) (x : List α) : Res (State α) := do
  let o ← look s v
  Res.assrt (o.k = x.length)
  let (s, o) ← (if o.cap ≤ o.n + 1 then reserve0 s o (2 * (o.n + 1)) else .ok (s, o))
  let h ← write s.host o.arr (o.n * o.k) x
  .ok { s with host := h, objs := s.objs.set v (some { o with n := o.n + 1 }) }

/-- tensors/IntTensor.hpp:569-573 `set(i0,i1,x)`. -/
def set (s : State α) (v i j : Nat) (x : α) : Res (State α) := do
  let o ← look s v
  let h ← write s.host o.arr (i * o.k + j) [x]
  .ok { s with host := h }

/-- tensors/IntTensor.hpp:593-599 `row(i)`. -/
def row (s : State α) (v i : Nat) : Res (List α) := do
  let o ← look s v
  readList s.host o.arr (i * o.k) o.k

/-- tensors/IntTensor.hpp:177-189, the copy constructor. -/
def copy (s : State α) (w : Nat) : Res (State α) := do
  let x ← look s w
  if x.gpu then do
    let l ← source s.dev x.arrg (x.n * x.k)
    .ok { s with dev := s.dev ++ [some (block (x.n * x.k) l)], objs := s.objs ++ [some ⟨none, some s.dev.length, x.n, x.n, x.k, true, false⟩] }
  else do
    let l ← source s.host x.arr (x.n * x.k)
    .ok { s with host := s.host ++ [some (block (x.n * x.k) l)], objs := s.objs ++ [some ⟨some s.host.length, none, x.n, x.n, x.k, false, false⟩] }

/-- tensors/IntTensor.hpp:242-249, the move constructor. -/
def move (s : State α) (w : Nat) : Res (State α) := do
  let x ← look s w
  .ok { s with objs := s.objs.set w (some { x with arr := none, arrg := none, cap := 0 }) ++ [some x] }

/-- tensors/IntTensor.hpp:251-270, copy assignment: the arrays of the target are released, but only the pointer of the device of `x` is replaced.  In `x=x` the new array is copied
to itself. -/
def assign (s : State α) (v w : Nat) : Res (State α) := do
  let r ← look s v
  let x ← look s w
  let h ← (if r.isView then .ok s.host else free s.host r.arr)
  let d ← (if r.isView then .ok s.dev else free s.dev r.arrg)
  if x.gpu then do
    let l ← (if v = w then .ok [] else source d x.arrg (x.n * x.k))
    .ok { host := h, dev := d ++ [some (block (x.n * x.k) l)], objs := s.objs.set v (some ⟨r.arr, some d.length, x.n, x.n, x.k, true, false⟩) }
  else do
    let l ← (if v = w then .ok [] else source h x.arr (x.n * x.k))
    .ok { host := h ++ [some (block (x.n * x.k) l)], dev := d, objs := s.objs.set v (some ⟨some h.length, r.arrg, x.n, x.n, x.k, false, false⟩) }

/-- tensors/IntTensor.hpp:272-284, move assignment; the pointers of `x` are reset.  In `x=std::move(x)` the released pointers are reset. -/
def moveAssign (s : State α) (v w : Nat) : Res (State α) := do
  let r ← look s v
  let x ← look s w
  let h ← (if r.isView then .ok s.host else free s.host r.arr)
  let d ← (if r.isView then .ok s.dev else free s.dev r.arrg)
  if v = w then .ok { host := h, dev := d, objs := s.objs.set v (some { x with arr := none, arrg := none }) }
  else .ok { host := h, dev := d, objs := (s.objs.set w (some { x with arr := none, arrg := none })).set v (some x) }

/-- tensors/IntTensor.hpp:234-240, the constructor with `view_flag`. -/
def view (s : State α) (w : Nat) : Res (State α) := do
  let x ← look s w
  .ok { s with objs := s.objs ++ [some { x with isView := true }] }

/-- tensors/IntTensor.hpp:290-318 `move_to_device(_dev)`: to the GPU `arr` is kept; to the host `arrg` is released but kept as a pointer. -/
def toDevice (s : State α) (v : Nat) (g : Bool) : Res (State α) := do
  let o ← look s v
  if o.gpu = g then .ok s
  else if o.isView then .throw
  else if g then do
    Res.assrt o.arr.isSome
    let d ← free s.dev o.arrg
    let l ← source s.host o.arr (o.n * o.k)
    .ok { s with dev := d ++ [some (block (o.n * o.k) l)], objs := s.objs.set v (some { o with cap := o.n, arrg := some d.length, gpu := true }) }
  else do
    Res.assrt o.arrg.isSome
    let h ← free s.host o.arr
    let l ← source s.dev o.arrg (o.n * o.k)
    let d ← free s.dev o.arrg
    .ok { host := h ++ [some (block (o.n * o.k) l)], dev := d, objs := s.objs.set v (some { o with cap := o.n, arr := some h.length, gpu := false }) }

/-- tensors/IntTensor.hpp:450-453 `get_arrg()` with `make_garr` (324-331): the array on the GPU is made at the first call, from all `memsize` cells.  What a kernel finds there: the
rows of the tensor. -/
def garr (s : State α) (v : Nat) : Res (State α × List (List α)) := do
  let o ← look s v
  let (s, q) ← (match o.arrg with
    | some q => .ok (s, q)
    | none => do
      Res.assrt o.arr.isSome
      Res.assrt (!o.isView)
      let l ← source s.host o.arr (o.cap * o.k)
      .ok ({ s with dev := s.dev ++ [some (block (o.cap * o.k) l)], objs := s.objs.set v (some { o with arrg := some s.dev.length }) }, s.dev.length) : Res (State α × Nat))
  let ls ← Res.forM (List.range o.n) [] fun ls i => do
    let l ← readList s.dev (some q) (i * o.k) o.k
    .ok (ls ++ [l])
  .ok (s, ls)

/-- tensors/IntTensor.hpp:50-54, the destructor. -/
def destroy (s : State α) (v : Nat) : Res (State α) := do
  let o ← look s v
  if o.isView then .ok { s with objs := s.objs.set v none }
  else do
    let h ← free s.host o.arr
    let d ← free s.dev o.arrg
    .ok { host := h, dev := d, objs := s.objs.set v none }

/-- The loop of tensors/IntTensor.hpp:584-585. -/
def eqFrom [DecidableEq α] (h : List (Option (List (Option α)))) (p q : Option Nat) : List Nat → Res Bool
  | [] => .ok true
  | i :: is => do
    let x ← PoolMem.cell h p i
    let y ← PoolMem.cell h q i
    if x ≠ y then .ok false else eqFrom h p q is

/-- tensors/IntTensor.hpp:581-587 `operator==`: the sizes, `memsize`, and all `memsize` cells. -/
def equal [DecidableEq α] (s : State α) (v w : Nat) : Res Bool := do
  let x ← look s v
  let y ← look s w
  if (x.n, x.k) ≠ (y.n, y.k) then .ok false
  else if x.cap * x.k ≠ y.cap * y.k then .ok false
  else eqFrom s.host x.arr y.arr (List.range (x.cap * x.k))

/-- What a program may do with tensors (tensors/IntTensor.hpp:50-625). -/
inductive Cmd (α : Type)
  | make (k : Nat)
  | push (v : Nat) (x : List α)
  | set (v i j : Nat) (x : α)
  | row (v i : Nat)
  | copy (w : Nat)
  | move (w : Nat)
  | assign (v w : Nat)
  | moveAssign (v w : Nat)
  | view (w : Nat)
  | toDevice (v : Nat) (g : Bool)
  | garr (v : Nat)
  | destroy (v : Nat)

/-- One command (tensors/IntTensor.hpp:50-625), with what it gives back. -/
def step (s : State α) : Cmd α → Res (State α × Option (List (List α)))
  | .make k => .ok (make s k, none)
  | .push v x => do
    let s ← push s v x
    .ok (s, none)
  | .set v i j x => do
    let s ← set s v i j x
    .ok (s, none)
  | .row v i => do
    let l ← row s v i
    .ok (s, some [l])
  | .copy w => do
    let s ← copy s w
    .ok (s, none)
  | .move w => do
    let s ← move s w
    .ok (s, none)
  | .assign v w => do
    let s ← assign s v w
    .ok (s, none)
  | .moveAssign v w => do
    let s ← moveAssign s v w
    .ok (s, none)
  | .view w => do
    let s ← view s w
    .ok (s, none)
  | .toDevice v g => do
    let s ← toDevice s v g
    .ok (s, none)
  | .garr v => do
    let (s, l) ← garr s v
    .ok (s, some l)
  | .destroy v => do
    let s ← destroy s v
    .ok (s, none)

/-- A program: commands (tensors/IntTensor.hpp:50-625) one after the other, and what they give back. -/
def run (s : State α) : List (Cmd α) → Res (State α × List (List (List α)))
  | [] => .ok (s, [])
  | c :: cs => do
    let (s, x) ← step s c
    let (s, xs) ← run s cs
    .ok (s, x.toList ++ xs)

/-- No tensors yet, before the first constructor (tensors/IntTensor.hpp:68). -/
def start : State α := ⟨[], [], []⟩

end IntMem

end Cnine
