import Verif.Model.Mem

/-!
# Memory that is never freed

The reference for programs with `MemArr` objects: objects are pointers (or null), arrays stay for ever.
-/

namespace Cnine

variable {α : Type}

namespace Mem

/-- The arrays and the pointers; `none` in `vars` is an object that was destroyed, `some none` a null pointer. -/
structure GC (α : Type) where
  heap : List (List (Option α))
  ext : List (List (Option α))
  vars : List (Option (Option Ptr))

namespace GC

/-- The pointer of an object that exists. -/
def ptr (g : GC α) (v : Nat) : Res (Option Ptr) :=
  match g.vars[v]? with
  | some (some p) => .ok p
  | _ => .ub

/-- The pointer `i` cells further. -/
def shift (i : Nat) : Ptr → Ptr
  | .own h o => .own h (o + i)
  | .ext a o => .ext a (o + i)

/-- A cell that has been written, by the array and the number of the cell. -/
def cellOf (l : List (List (Option α))) (h o : Nat) : Res α :=
  match l[h]? with
  | none => .ub
  | some c =>
    match c[o]? with
    | some (some x) => .ok x
    | _ => .ub

/-- Writing a cell. -/
def put (l : List (List (Option α))) (h o : Nat) (x : α) : Res (List (List (Option α))) :=
  match l[h]? with
  | none => .ub
  | some c => if o < c.length then .ok (l.set h (c.set o (some x))) else .ub

/-- One command. -/
def step (g : GC α) : Cmd α → Res (GC α × Option α)
  | .fresh n => .ok ({ g with heap := g.heap ++ [List.replicate (max n 1) none], vars := g.vars ++ [some (some (.own g.heap.length 0))] }, none)
  | .zeroed n z => .ok ({ g with heap := g.heap ++ [(List.range (max n 1)).map fun i => if i < n then some z else none]
                                 vars := g.vars ++ [some (some (.own g.heap.length 0))] }, none)
  | .empty => .ok ({ g with vars := g.vars ++ [some none] }, none)
  | .copy v => do
    let p ← g.ptr v
    .ok ({ g with vars := g.vars ++ [some p] }, none)
  | .plus v i => do
    let p ← g.ptr v
    .ok ({ g with vars := g.vars ++ [some (p.map (shift i))] }, none)
  | .wrapExt a o =>
    match g.ext[a]? with
    | none => .ub
    | some c => if o ≤ c.length then .ok ({ g with vars := g.vars ++ [some (some (.ext a o))] }, none) else .ub
  | .wrapOwn v => do
    let p ← g.ptr v
    match p with
    | none => .ub
    | some p => .ok ({ g with vars := g.vars ++ [some (some p)] }, none)
  | .assign v w => do
    let _ ← g.ptr v
    let p ← g.ptr w
    .ok ({ g with vars := g.vars.set v (some p) }, none)
  | .destroy v => do
    let _ ← g.ptr v
    .ok ({ g with vars := g.vars.set v none }, none)
  | .read v i => do
    let p ← g.ptr v
    match p with
    | none => .ub
    | some (.own h o) => do
      let x ← cellOf g.heap h (o + i)
      .ok (g, some x)
    | some (.ext a o) => do
      let x ← cellOf g.ext a (o + i)
      .ok (g, some x)
  | .write v i x => do
    let p ← g.ptr v
    match p with
    | none => .ub
    | some (.own h o) => do
      let l ← put g.heap h (o + i) x
      .ok ({ g with heap := l }, none)
    | some (.ext a o) => do
      let l ← put g.ext a (o + i) x
      .ok ({ g with ext := l }, none)
  | .extNew c => .ok ({ g with ext := g.ext ++ [c] }, none)
  | .extFree _ => .ok (g, none)

/-- A program: the state at its end and everything that was read. -/
def run (g : GC α) : List (Cmd α) → Res (GC α × List α)
  | [] => .ok (g, [])
  | c :: cs => do
    let r ← step g c
    let r' ← run r.1 cs
    .ok (r'.1, r.2.toList ++ r'.2)

/-- Nothing is there. -/
def init : GC α := ⟨[], [], []⟩

end GC

/-- Commands that do not wrap the pointer of another object, and do not free the array of someone else. -/
def Plain : Cmd α → Prop
  | .wrapOwn _ => False
  | .extFree _ => False
  | _ => True

/-- Blocks with guards: `Sees cur k l k' out` says that `l` is a block (guards made in it are destroyed in it, in the reverse order) at whose start `k`
guards have been made and the current manager is `cur`, `k'` is their number at its end, and `out` are the managers of the innermost blocks around each
use. -/
inductive Sees {μ : Type} : μ → Nat → List (Guard μ) → Nat → List μ → Prop
  | nil (cur : μ) (k : Nat) : Sees cur k [] k []
  | look {cur : μ} {k k' : Nat} {l : List (Guard μ)} {out : List μ} (h : Sees cur k l k' out) : Sees cur k (.look :: l) k' (cur :: out)
  | block {cur m : μ} {k k' k'' : Nat} {body l : List (Guard μ)} {out out' : List μ} (h : Sees m (k + 1) body k' out) (h' : Sees cur k' l k'' out') :
      Sees cur k (.on m :: (body ++ .off k :: l)) k'' (out ++ out')

end Mem

end Cnine
