import Verif.Model.Basic

/-!
# Model of legacy/labeled/pvector.hpp

A vector of pointers that owns what they point to.  The heap maps addresses to objects; `clone` makes an equal object at a fresh
address.  Deleting an object that is no longer there, and cloning through a null or stale pointer, are undefined.
-/

namespace Cnine.PV

variable {α : Type _}

/-- The objects alive, by address; `next` is above all addresses used (legacy/labeled/pvector.hpp:38, 47). -/
structure Heap (α : Type _) where
  next : Nat
  obj : Nat → Option α

/-- legacy/labeled/pvector.hpp:23: `vector<TYPE*>`; `none` is the null pointer. -/
abbrev Vec := List (Option Nat)

/-- legacy/labeled/pvector.hpp:32-33: null pointers. -/
def mk (n : Nat) : Vec := List.replicate n none

/-- `delete p` (legacy/labeled/pvector.hpp:38, 58, 65). -/
def del (p : Option Nat) (h : Heap α) : Res (Heap α) :=
  match p with
  | none => .ok h
  | some a =>
    match h.obj a with
    | none => .ub
    | some _ => .ok { h with obj := fun b => if b = a then none else h.obj b }

/-- legacy/labeled/pvector.hpp:36-39, the loop also of 57-58 and 64-65. -/
def destroy : Vec → Heap α → Res (Heap α)
  | [], h => .ok h
  | p :: v, h => do
    let h ← del p h
    destroy v h

/-- `p->clone()` (legacy/labeled/pvector.hpp:47, 60, 79, 81). -/
def clone (p : Option Nat) (h : Heap α) : Res (Heap α × Option Nat) :=
  match p with
  | none => .ub
  | some a =>
    match h.obj a with
    | none => .ub
    | some x => .ok (⟨h.next + 1, fun b => if b = h.next then some x else h.obj b⟩, some h.next)

/-- legacy/labeled/pvector.hpp:45-48, the loop also of 59-60. -/
def copy : Vec → Heap α → Res (Heap α × Vec)
  | [], h => .ok (h, [])
  | p :: v, h => do
    let r ← clone p h
    let s ← copy v r.1
    .ok (s.1, r.2 :: s.2)

/-- legacy/labeled/pvector.hpp:50-54: the new vector and what `x` is afterwards. -/
def move (x : Vec) : Vec × Vec := (x, [])

/-- legacy/labeled/pvector.hpp:57-60: what the body of the assignment does to `v`. -/
def assignBody (v x : Vec) (h : Heap α) : Res (Heap α × Vec) := do
  let h ← destroy v h
  let r ← copy x h
  .ok (r.1, v ++ r.2)

/-- legacy/labeled/pvector.hpp:56-61: the function ends without `return`, which is undefined. -/
def assign (v x : Vec) (h : Heap α) : Res (Heap α × Vec) := do
  let _ ← assignBody v x h
  .ub

/-- legacy/labeled/pvector.hpp:64-68: the body of the moving assignment; the vector, and what `x` is afterwards. -/
def moveAssignBody (v x : Vec) (h : Heap α) : Res (Heap α × Vec × Vec) := do
  let h ← destroy v h
  .ok (h, v ++ x, [])

/-- legacy/labeled/pvector.hpp:75-83; the null pointers of line 77 are all overwritten.  A negative `j` is a large number in line 76. -/
def remove (v : Vec) (j : Int) (h : Heap α) : Res (Heap α × Vec) := do
  Res.assrt (0 ≤ j ∧ j < v.length)
  let r ← copy (v.take j.toNat) h
  let s ← copy (v.drop (j.toNat + 1)) r.1
  .ok (s.1, r.2 ++ s.2)

end Cnine.PV
