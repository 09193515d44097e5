import Verif.Model.Elem

/-!
# Model of include/MemArr.hpp, include/MemBlob.hpp and include/MemoryManager.hpp

Programs that make, copy, move along, assign, destroy and use `MemArr` objects on the CPU.  A `shared_ptr` has a counter of the objects that refer to
its blob; the blob is destroyed when it becomes 0.  Cells of `new TYPE[n]` are not initialised (`none`) and reading one is undefined.  Arrays made by
`MemBlob` are in `heap`, arrays of others (whose pointers are wrapped) in `ext`.
-/

namespace Cnine

variable {α : Type}

namespace Mem

/-- A pointer: cell `o` of an array made by a blob, or of another array (the member `arr`, include/MemBlob.hpp:49). -/
inductive Ptr where
  | own (h o : Nat)
  | ext (a o : Nat)
deriving DecidableEq

/-- include/MemBlob.hpp:49-52, with the counter of the `shared_ptr` of include/MemArr.hpp:43. -/
structure Blob where
  cnt : Nat
  isView : Bool
  ptr : Ptr

/-- The arrays (`none` after `delete[]`), the blobs, and the `MemArr` objects (include/MemArr.hpp:43-44, `none` after destruction): a blob or the null
pointer, and the offset. -/
structure St (α : Type) where
  heap : List (Option (List (Option α)))
  ext : List (Option (List (Option α)))
  blobs : List Blob
  vars : List (Option (Option Nat × Nat))

/-- What a program may do; objects are numbered in the order in which they are made.  `fresh n`: include/MemArr.hpp:51-52; `zeroed n`: 54-58; `empty`:
47-49; `copy v`: the implicit copy constructor; `plus v i`: 63-66 and 128-130; `wrapExt a o`: 77-78 with a pointer to cell `o` of array `a` of someone
else; `wrapOwn v`: the same with the pointer `v.ptr()` (102-104); `assign v w`: 84-88; `destroy v`; `read`, `write`: 119-125; `extNew`, `extFree`: what
the owner of another array does. -/
inductive Cmd (α : Type) where
  | fresh (n : Nat)
  | zeroed (n : Nat) (z : α)
  | empty
  | copy (v : Nat)
  | plus (v i : Nat)
  | wrapExt (a o : Nat)
  | wrapOwn (v : Nat)
  | assign (v w : Nat)
  | destroy (v : Nat)
  | read (v i : Nat)
  | write (v i : Nat) (x : α)
  | extNew (cells : List (Option α))
  | extFree (a : Nat)

/-- The object `v`, which must exist (include/MemArr.hpp:43-44). -/
def obj (s : St α) (v : Nat) : Res (Option Nat × Nat) :=
  match s.vars[v]? with
  | some (some r) => .ok r
  | _ => .ub

/-- Copying the `shared_ptr` (include/MemArr.hpp:43): one more object refers to the blob. -/
def retain (s : St α) (b : Option Nat) : Res (St α) :=
  match b with
  | none => .ok s
  | some b =>
    match s.blobs[b]? with
    | some B => if B.cnt = 0 then .ub else .ok { s with blobs := s.blobs.set b { B with cnt := B.cnt + 1 } }
    | none => .ub

/-- `delete[] arr` (include/MemBlob.hpp:65). -/
def free (s : St α) (p : Ptr) : Res (St α) :=
  match p with
  | .own h o =>
    match s.heap[h]? with
    | some (some _) => if o = 0 then .ok { s with heap := s.heap.set h none } else .ub
    | _ => .ub
  | .ext a o =>
    match s.ext[a]? with
    | some (some _) => if o = 0 then .ok { s with ext := s.ext.set a none } else .ub
    | _ => .ub

/-- Dropping the `shared_ptr` (include/MemArr.hpp:43): the blob is destroyed when no object refers to it any more, and then include/MemBlob.hpp:54-67. -/
def release (s : St α) (b : Option Nat) : Res (St α) :=
  match b with
  | none => .ok s
  | some b =>
    match s.blobs[b]? with
    | some B =>
      if B.cnt = 0 then .ub
      else
        let s' := { s with blobs := s.blobs.set b { B with cnt := B.cnt - 1 } }
        if B.cnt = 1 ∧ B.isView = false then free s' B.ptr else .ok s'
    | none => .ub

/-- `p+i` (include/MemArr.hpp:103). -/
def move (p : Ptr) (i : Nat) : Ptr :=
  match p with
  | .own h o => .own h (o + i)
  | .ext a o => .ext a (o + i)

/-- `blob->arr+offset+i` (include/MemArr.hpp:103, 120); the blob must exist. -/
def address (s : St α) (v i : Nat) : Res Ptr := do
  let r ← obj s v
  match r.1 with
  | none => .ub
  | some b =>
    match s.blobs[b]? with
    | some B => if B.cnt = 0 then .ub else .ok (move B.ptr (i + r.2))
    | none => .ub

/-- A cell of an array; `l` is the list of arrays (include/MemArr.hpp:120). -/
def loadFrom (l : List (Option (List (Option α)))) (h o : Nat) : Res α :=
  match l[h]? with
  | some (some c) =>
    match c[o]? with
    | some (some x) => .ok x
    | _ => .ub
  | _ => .ub

/-- Storing in a cell of an array (include/MemArr.hpp:124). -/
def storeTo (l : List (Option (List (Option α)))) (h o : Nat) (x : α) : Res (List (Option (List (Option α)))) :=
  match l[h]? with
  | some (some c) => if o < c.length then .ok (l.set h (some (c.set o (some x)))) else .ub
  | _ => .ub

/-- `operator[]` read (include/MemArr.hpp:119-121). -/
def load (s : St α) (p : Ptr) : Res α :=
  match p with
  | .own h o => loadFrom s.heap h o
  | .ext a o => loadFrom s.ext a o

/-- `operator[]` written (include/MemArr.hpp:123-125). -/
def store (s : St α) (p : Ptr) (x : α) : Res (St α) :=
  match p with
  | .own h o => do
    let l ← storeTo s.heap h o x
    .ok { s with heap := l }
  | .ext a o => do
    let l ← storeTo s.ext a o x
    .ok { s with ext := l }

/-- include/MemArr.hpp:51-52 with include/MemBlob.hpp:72-97: at least one cell.  `c` are the cells of the new array. -/
def alloc (s : St α) (c : List (Option α)) : St α :=
  { s with
    heap := s.heap ++ [some c]
    blobs := s.blobs ++ [⟨1, false, .own s.heap.length 0⟩]
    vars := s.vars ++ [some (some s.blobs.length, 0)] }

/-- include/MemArr.hpp:77-78 with include/MemBlob.hpp:117-120: a blob that is a view. -/
def wrap (s : St α) (p : Ptr) : St α :=
  { s with
    blobs := s.blobs ++ [⟨1, true, p⟩]
    vars := s.vars ++ [some (some s.blobs.length, 0)] }

/-- One command (include/MemArr.hpp:47-130), with what was read. -/
def step (s : St α) (c : Cmd α) : Res (St α × Option α) :=
  match c with
  | .fresh n => .ok (alloc s (List.replicate (max n 1) none), none)
  | .zeroed n z => .ok (alloc s (List.replicate n (some z) ++ List.replicate (max n 1 - n) none), none)
  | .empty => .ok ({ s with vars := s.vars ++ [some (none, 0)] }, none)
  | .copy v => do
    let r ← obj s v
    let s ← retain s r.1
    .ok ({ s with vars := s.vars ++ [some r] }, none)
  | .plus v i => do
    let r ← obj s v
    let s ← retain s r.1
    .ok ({ s with vars := s.vars ++ [some (r.1, r.2 + i)] }, none)
  | .wrapExt a o =>
    match s.ext[a]? with
    | some (some c) => if o ≤ c.length then .ok (wrap s (.ext a o), none) else .ub
    | _ => .ub
  | .wrapOwn v => do
    let p ← address s v 0
    .ok (wrap s p, none)
  | .assign v w => do
    let r ← obj s v
    let r' ← obj s w
    let s ← retain s r'.1
    let s := { s with vars := s.vars.set v (some r') }
    let s ← release s r.1
    .ok (s, none)
  | .destroy v => do
    let r ← obj s v
    let s := { s with vars := s.vars.set v none }
    let s ← release s r.1
    .ok (s, none)
  | .read v i => do
    let p ← address s v i
    let x ← load s p
    .ok (s, some x)
  | .write v i x => do
    let p ← address s v i
    let s ← store s p x
    .ok (s, none)
  | .extNew c => .ok ({ s with ext := s.ext ++ [some c] }, none)
  | .extFree a => do
    let s ← free s (.ext a 0)
    .ok (s, none)

/-- A program (include/MemArr.hpp:47-130): the state at its end and everything that was read. -/
def run (s : St α) : List (Cmd α) → Res (St α × List α)
  | [] => .ok (s, [])
  | c :: cs => do
    let r ← step s c
    let r' ← run r.1 cs
    .ok (r'.1, r.2.toList ++ r'.2)

/-- Before the program (include/MemArr.hpp:43-44). -/
def init : St α := ⟨[], [], [], []⟩

/-! ### Managers of memory -/

/-- `manager->malloc(_memsize*sizeof(TYPE))` (include/MemBlob.hpp:80, 104): the parameter of include/MemoryManager.hpp:27 is an `int`, so that the
number of bytes (a `size_t`, here below 2^64) is taken modulo 2^32 as a signed number. -/
def toInt32 (n : Nat) : Int :=
  let r : Nat := n % 2 ^ 32
  if r < 2 ^ 31 then (r : Int) else (r : Int) - 2 ^ 32

/-- include/MemBlob.hpp:80: the number of bytes asked for. -/
def requested (memsize size : Nat) : Int := toInt32 ((max memsize 1 * size) % 2 ^ 64)

/-- include/MemBlob.hpp:101-105, an explicit manager: here without the minimum of one element. -/
def requestedFrom (memsize size : Nat) : Int := toInt32 ((memsize * size) % 2 ^ 64)

/-- What is done with guards: `on m` makes one (include/MemoryManager.hpp:39-42), `off k` destroys the `k`-th one made (43-45), `look` is a use of the
global pointer (include/MemBlob.hpp:77-80). -/
inductive Guard (μ : Type) where
  | on (m : μ)
  | off (k : Nat)
  | look

/-- include/MemoryManager.hpp:36-46: the global pointer, and the member `old` of all guards made; what was seen. -/
def guards {μ : Type} (cur : μ) (olds : List μ) : List (Guard μ) → Res (μ × List μ)
  | [] => .ok (cur, [])
  | .on m :: cs => guards m (olds ++ [cur]) cs
  | .off k :: cs =>
    match olds[k]? with
    | some o => guards o olds cs
    | none => .ub
  | .look :: cs => do
    let r ← guards cur olds cs
    .ok (r.1, cur :: r.2)

end Mem

end Cnine
