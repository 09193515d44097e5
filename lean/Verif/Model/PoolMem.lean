import Verif.Model.Basic

/-!
# The memory of array pools

containers/array_pool.hpp: allocation, growth, copying, moving, views, transport to the GPU and the cached copy on the GPU.  A machine runs programs on pools kept in
variables.  Memory is two lists of blocks, one for the host and one for the GPU; a released block stays in the list as `none` and is not used again.  Cells of a new
block hold `none` until they are written.  The directory (an `IntTensor` with rows `(offset,length)`) is a value here: its number of rows, its capacity and its rows, the
latter `none` when its array is null; a row that was never written is `none`.
-/

namespace Cnine

variable {α : Type}

namespace PoolMem

/-- `dir` (containers/array_pool.hpp:55): tensors/IntTensor.hpp:41-48 with sizes `{n,2}`; `cap` is `capacity0()`. -/
structure Dir where
  n : Nat
  cap : Nat
  tab : Option (List (Option (Nat × Nat)))
deriving DecidableEq

/-- containers/array_pool.hpp:45-55.  `clone` is `gpu_clone`: the block of its `arrg`, and its directory. -/
structure Obj where
  arr : Option Nat
  arrg : Option Nat
  memsize : Nat
  tail : Nat
  gpu : Bool
  isView : Bool
  clone : Option (Nat × List (Option (Nat × Nat)))
  dir : Dir
deriving DecidableEq

/-- The blocks of the host and the GPU, and the variables that hold pools (containers/array_pool.hpp:45-55). -/
structure State (α : Type) where
  host : List (Option (List (Option α)))
  dev : List (Option (List (Option α)))
  objs : List (Option Obj)

/-- `new TYPE[std::max(n,1)]` or `cudaMalloc`, with `l` copied to the front (containers/array_pool.hpp:201-203, 231-232). -/
def block (n : Nat) (l : List (Option α)) : List (Option α) := l ++ List.replicate (max n 1 - l.length) none

/-- `delete[] p` or `cudaFree(p)` (containers/array_pool.hpp:68-69). -/
def free (h : List (Option (List (Option α)))) : Option Nat → Res (List (Option (List (Option α))))
  | none => .ok h
  | some b =>
    match h[b]? with
    | some (some _) => .ok (h.set b none)
    | _ => .ub

/-- The first `n` cells at `p`, the source of `std::copy` and `cudaMemcpy` (containers/array_pool.hpp:203, 213, 232). -/
def source (h : List (Option (List (Option α)))) (p : Option Nat) (n : Nat) : Res (List (Option α)) :=
  if n = 0 then .ok [] else
    match p with
    | none => .ub
    | some b =>
      match h[b]? with
      | some (some l) => if n ≤ l.length then .ok (l.take n) else .ub
      | _ => .ub

/-- `arr[off+i]=v[i]` for all `i` (containers/array_pool.hpp:505-506). -/
def write (h : List (Option (List (Option α)))) (p : Option Nat) (off : Nat) (v : List α) : Res (List (Option (List (Option α)))) :=
  if v = [] then .ok h else
    match p with
    | none => .ub
    | some b =>
      match h[b]? with
      | some (some l) => if off + v.length ≤ l.length then .ok (h.set b (some (l.take off ++ v.map some ++ l.drop (off + v.length)))) else .ub
      | _ => .ub

/-- `R[i]=arr[addr+i]` for `i<len` (containers/array_pool.hpp:485-486); the cells must have been written. -/
def readList (h : List (Option (List (Option α)))) (p : Option Nat) (addr len : Nat) : Res (List α) :=
  if len = 0 then .ok [] else
    match p with
    | none => .ub
    | some b =>
      match h[b]? with
      | some (some l) =>
        if addr + len ≤ l.length ∧ ((l.drop addr).take len).all Option.isSome then .ok (((l.drop addr).take len).filterMap id) else .ub
      | _ => .ub

/-- `dir.push_back(tail,len)`, tensors/IntTensor.hpp:638-646 with 341-361. -/
def Dir.push (d : Dir) (t len : Nat) : Res Dir :=
  if d.cap ≤ d.n + 1 then
    match d.tab with
    | some l => .ok ⟨d.n + 1, 2 * (d.n + 1), some (l ++ [some (t, len)])⟩
    | none => if d.n = 0 then .ok ⟨1, 2, some [some (t, len)]⟩ else .ub
  else
    match d.tab with
    | some l => .ok ⟨d.n + 1, d.cap, some (l ++ [some (t, len)])⟩
    | none => .ub

/-- `dir=x.dir`, tensors/IntTensor.hpp:251-270, and the copy constructor 177-190: the rows are copied from the array of `x`. -/
def Dir.copy (d : Dir) : Res Dir :=
  match d.tab with
  | some l => .ok ⟨d.n, d.n, some l⟩
  | none => if d.n = 0 then .ok ⟨0, 0, some []⟩ else .ub

/-- `dir=dir`, tensors/IntTensor.hpp:251-270: the old array is released, and the new one is copied to itself. -/
def Dir.copySelf (d : Dir) : Dir := ⟨d.n, d.n, some (List.replicate d.n none)⟩

/-- What is left of a moved directory, tensors/IntTensor.hpp:272-284: only the pointer is reset. -/
def Dir.moved (d : Dir) : Dir := { d with tab := none }

/-- The row `i` of the directory, tensors/IntTensor.hpp:494-498. -/
def Dir.row (d : Dir) (i : Nat) : Res (Nat × Nat) :=
  match d.tab with
  | some l =>
    match l[i]? with
    | some (some r) => .ok r
    | _ => .ub
  | none => .ub

/-- The pool in variable `v` (the `*this` and `x` of containers/array_pool.hpp:225-298). -/
def look (s : State α) (v : Nat) : Res Obj :=
  match s.objs[v]? with
  | some (some o) => .ok o
  | _ => .ub

/-- containers/array_pool.hpp:77-78: the default constructor. -/
def fresh : Obj := ⟨none, none, 0, 0, false, false, none, ⟨0, 0, none⟩⟩

/-- containers/array_pool.hpp:197-219 `reserve(n)`; there is no test for views. -/
def reserve (s : State α) (o : Obj) (n : Nat) : Res (State α × Obj) :=
  if n ≤ o.memsize then .ok (s, o)
  else if o.gpu then do
    let l ← (if o.arrg = none then .ok [] else source s.dev o.arrg o.memsize)
    let d ← free s.dev o.arrg
    .ok ({ s with dev := d ++ [some (block n l)] }, { o with arrg := some d.length, memsize := n })
  else do
    let l ← (if o.arr = none then .ok [] else source s.host o.arr o.memsize)
    let h ← free s.host o.arr
    .ok ({ s with host := h ++ [some (block n l)] }, { o with arr := some h.length, memsize := n })

/-- containers/array_pool.hpp:501-509 `push_back(v)`. -/
def push (s : State α) (v : Nat) (l : List α) : Res (State α) := do
  let o ← look s v
  let (s, o) ← (if o.memsize < o.tail + l.length then reserve s o (max (2 * o.memsize) (o.tail + l.length)) else .ok (s, o))
  let h ← write s.host o.arr o.tail l
  let d ← o.dir.push o.tail l.length
  .ok { s with host := h, objs := s.objs.set v (some { o with dir := d, tail := o.tail + l.length }) }

/-- containers/array_pool.hpp:480-488 `operator()(i)`. -/
def get (s : State α) (v i : Nat) : Res (List α) := do
  let o ← look s v
  Res.assrt (i < o.dir.n)
  let r ← o.dir.row i
  readList s.host o.arr r.1 r.2

/-- containers/array_pool.hpp:474-478 `set(i,j,v)`. -/
def set (s : State α) (v i j : Nat) (a : α) : Res (State α) := do
  let o ← look s v
  Res.assrt (i < o.dir.n)
  let r ← o.dir.row i
  Res.assrt (j < r.2)
  let h ← write s.host o.arr (r.1 + j) [a]
  .ok { s with host := h }

/-- containers/array_pool.hpp:225-238, the copy constructor; on the GPU it only prints. -/
def copy (s : State α) (w : Nat) : Res (State α) := do
  let x ← look s w
  if x.gpu then do
    let d ← x.dir.copy
    .ok { s with objs := s.objs ++ [some ⟨none, none, x.tail, x.tail, true, false, none, d⟩] }
  else do
    let l ← source s.host x.arr x.tail
    let d ← x.dir.copy
    .ok { s with host := s.host ++ [some (block x.tail l)], objs := s.objs ++ [some ⟨some s.host.length, none, x.tail, x.tail, false, false, none, d⟩] }

/-- containers/array_pool.hpp:240-249, the move constructor. -/
def move (s : State α) (w : Nat) : Res (State α) := do
  let x ← look s w
  .ok { s with objs := s.objs.set w (some { x with tail := 0, memsize := 0, arr := none, arrg := none, dir := x.dir.moved }) ++ [some { x with clone := none }] }

/-- containers/array_pool.hpp:251-280, copy assignment: `x` is read after the arrays of the target are released and replaced, so in `x=x` the new array, not yet written,
is copied to itself; `gpu_clone` is kept. -/
def assign (s : State α) (v w : Nat) : Res (State α) := do
  let r ← look s v
  let x ← look s w
  let h ← (if r.isView then .ok s.host else free s.host r.arr)
  let d ← (if r.isView then .ok s.dev else free s.dev r.arrg)
  let dir ← (if v = w then .ok x.dir.copySelf else x.dir.copy)
  let r := { r with gpu := x.gpu, tail := x.tail, memsize := x.tail, isView := false, dir := dir }
  if x.gpu then do
    let l ← (if v = w then .ok [] else source d x.arrg x.tail)
    .ok { host := h, dev := d ++ [some (block x.tail l)], objs := s.objs.set v (some { r with arr := none, arrg := some d.length }) }
  else do
    let l ← (if v = w then .ok [] else source h x.arr x.tail)
    .ok { host := h ++ [some (block x.tail l)], dev := d, objs := s.objs.set v (some { r with arr := some h.length, arrg := none }) }

/-- containers/array_pool.hpp:283-299, move assignment: `gpu_clone` is kept, and `x` keeps all but its pointers.  In `x=std::move(x)` the pointers are already null. -/
def moveAssign (s : State α) (v w : Nat) : Res (State α) := do
  let r ← look s v
  let x ← look s w
  let h ← (if r.isView then .ok s.host else free s.host r.arr)
  let d ← (if r.isView then .ok s.dev else free s.dev r.arrg)
  if v = w then .ok { host := h, dev := d, objs := s.objs.set v (some { x with arr := none, arrg := none, dir := x.dir.moved }) }
  else .ok { host := h, dev := d, objs := (s.objs.set w (some { x with arr := none, arrg := none, dir := x.dir.moved })).set v (some { x with clone := r.clone }) }

/-- containers/array_pool.hpp:305-316 `view()`. -/
def view (s : State α) (w : Nat) : Res (State α) := do
  let x ← look s w
  let d ← x.dir.copy
  .ok { s with objs := s.objs ++ [some { x with dir := d, isView := true, clone := none }] }

/-- containers/array_pool.hpp:372-403 `to_device(_dev)`. -/
def toDevice (s : State α) (v : Nat) (g : Bool) : Res (State α) := do
  let o ← look s v
  if o.gpu = g then .ok s
  else if g then do
    let l ← source s.host o.arr o.tail
    let d ← free s.dev o.arrg
    let h ← free s.host o.arr
    .ok { host := h, dev := d ++ [some (block o.tail l)], objs := s.objs.set v (some { o with memsize := o.tail, arrg := some d.length, arr := none, gpu := true }) }
  else do
    let l ← source s.dev o.arrg o.tail
    let h ← free s.host o.arr
    let d ← free s.dev o.arrg
    .ok { host := h ++ [some (block o.tail l)], dev := d, objs := s.objs.set v (some { o with memsize := o.tail, arr := some h.length, arrg := none, gpu := false }) }

/-- A list found through its row of the directory (containers/array_pool.hpp:480-488, with the pointers that `gpu_arrs` gives, 412). -/
def readRow (h : List (Option (List (Option α)))) (p : Nat) (ls : List (List α)) : Option (Nat × Nat) → Res (List (List α))
  | some r => do
    let l ← readList h (some p) r.1 r.2
    .ok (ls ++ [l])
  | none => .ub

/-- containers/array_pool.hpp:406-413 `gpu_arrs(_dev)` with 354-369: the copy is made at the first call.  What a kernel finds there: the lists of the directory. -/
def gpuArrs (s : State α) (v : Nat) : Res (State α × List (List α)) := do
  let o ← look s v
  Res.assrt (!o.gpu)
  let (s, q) ← (match o.clone with
    | some q => .ok (s, q)
    | none => do
      let d ← o.dir.copy
      let l ← source s.host o.arr o.tail
      let q := (s.dev.length, d.tab.getD [])
      .ok ({ s with dev := s.dev ++ [some (block o.tail l)], objs := s.objs.set v (some { o with clone := some q }) }, q) : Res (State α × Nat × List (Option (Nat × Nat))))
  let ls ← Res.forM q.2 [] (readRow s.dev q.1)
  .ok (s, ls)

/-- containers/array_pool.hpp:66-71, the destructor. -/
def destroy (s : State α) (v : Nat) : Res (State α) := do
  let o ← look s v
  if o.isView then .ok { s with objs := s.objs.set v none }
  else do
    let h ← free s.host o.arr
    let d ← free s.dev o.arrg
    let d ← free d (o.clone.map Prod.fst)
    .ok { host := h, dev := d, objs := s.objs.set v none }

/-- `arr[a]`, read (containers/array_pool.hpp:471, 605). -/
def cell (h : List (Option (List (Option α)))) (p : Option Nat) (a : Nat) : Res α :=
  match p with
  | none => .ub
  | some b =>
    match h[b]? with
    | some (some l) =>
      match l[a]? with
      | some (some x) => .ok x
      | _ => .ub
    | _ => .ub

/-- The loop of containers/array_pool.hpp:604-605. -/
def eqCells [DecidableEq α] (h : List (Option (List (Option α)))) (p q : Option Nat) (a b : Nat) : List Nat → Res Bool
  | [] => .ok true
  | j :: js => do
    let x ← cell h p (a + j)
    let y ← cell h q (b + j)
    if x ≠ y then .ok false else eqCells h p q a b js

/-- The loop of containers/array_pool.hpp:599-606. -/
def eqRows [DecidableEq α] (h : List (Option (List (Option α)))) (x y : Obj) : List Nat → Res Bool
  | [] => .ok true
  | i :: is => do
    let r ← x.dir.row i
    let q ← y.dir.row i
    if r.2 ≠ q.2 then .ok false else do
      let b ← eqCells h x.arr y.arr r.1 q.1 (List.range r.2)
      if b then eqRows h x y is else .ok false

/-- containers/array_pool.hpp:597-608 `operator==`. -/
def equal [DecidableEq α] (s : State α) (v w : Nat) : Res Bool := do
  let x ← look s v
  let y ← look s w
  if x.dir.n ≠ y.dir.n then .ok false else eqRows s.host x y (List.range x.dir.n)

/-- containers/array_pool.hpp:591-595 `as_vecs`, with 548-552: the lists that `forall` visits. -/
def asVecs (s : State α) (v : Nat) : Res (List (List α)) := do
  let o ← look s v
  Res.forM (List.range o.dir.n) [] fun ls i => do
    let l ← get s v i
    .ok (ls ++ [l])

/-- containers/array_pool.hpp:468-472 `operator()(i,j)`. -/
def elem (s : State α) (v i j : Nat) : Res α := do
  let o ← look s v
  Res.assrt (i < o.dir.n)
  let r ← o.dir.row i
  Res.assrt (j < r.2)
  cell s.host o.arr (r.1 + j)

/-- containers/array_pool.hpp:457-460 `size_of(i)`. -/
def sizeOf (s : State α) (v i : Nat) : Res Nat := do
  let o ← look s v
  Res.assrt (i < o.dir.n)
  let r ← o.dir.row i
  .ok r.2

/-- containers/array_pool.hpp:566-573, `for_each(lambda)` for elements: the calls of `lambda`. -/
def forEach (s : State α) (v : Nat) : Res (List (Nat × α)) := do
  let o ← look s v
  Res.forM (List.range o.dir.n) [] fun ls i => do
    let m ← sizeOf s v i
    Res.forM (List.range m) ls fun ls j => do
      let a ← elem s v i j
      .ok (ls ++ [(i, a)])

/-- What a program may do with pools (containers/array_pool.hpp:66-509). -/
inductive Cmd (α : Type)
  | make
  | push (v : Nat) (l : List α)
  | set (v i j : Nat) (a : α)
  | get (v i : Nat)
  | copy (w : Nat)
  | move (w : Nat)
  | assign (v w : Nat)
  | moveAssign (v w : Nat)
  | view (w : Nat)
  | toDevice (v : Nat) (g : Bool)
  | gpuArrs (v : Nat)
  | destroy (v : Nat)

/-- One command (containers/array_pool.hpp:66-509), with what it gives back. -/
def step (s : State α) : Cmd α → Res (State α × Option (List (List α)))
  | .make => .ok ({ s with objs := s.objs ++ [some fresh] }, none)
  | .push v l => do
    let s ← push s v l
    .ok (s, none)
  | .set v i j a => do
    let s ← set s v i j a
    .ok (s, none)
  | .get v i => do
    let l ← get s v i
    .ok (s, some [l])
  | .copy w => do
    let s ← copy s w
    .ok (s, none)
  | .move w => do
    let s ← move s w
    .ok (s, none)
  | .assign v w => do
    let s ← assign s v w
    .ok (s, none)
  | .moveAssign v w => do
    let s ← moveAssign s v w
    .ok (s, none)
  | .view w => do
    let s ← view s w
    .ok (s, none)
  | .toDevice v g => do
    let s ← toDevice s v g
    .ok (s, none)
  | .gpuArrs v => do
    let (s, l) ← gpuArrs s v
    .ok (s, some l)
  | .destroy v => do
    let s ← destroy s v
    .ok (s, none)

/-- A program: commands (containers/array_pool.hpp:66-509) one after the other, and what they give back. -/
def run (s : State α) : List (Cmd α) → Res (State α × List (List (List α)))
  | [] => .ok (s, [])
  | c :: cs => do
    let (s, x) ← step s c
    let (s, xs) ← run s cs
    .ok (s, x.toList ++ xs)

/-- No pools yet, before the first constructor (containers/array_pool.hpp:77-78). -/
def start : State α := ⟨[], [], []⟩

end PoolMem

end Cnine
