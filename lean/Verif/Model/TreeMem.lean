import Verif.Model.Elem

/-!
# Model of the memory of combinatorial/labeled_tree.hpp

Nodes lie on a heap by address; a node has a label and the addresses of its children.  Following an address without a node is
undefined, and so is a recursion without end, for which `fuel` stands.  The address of a copied node is chosen after those of its
children, while `new` chooses it before: the addresses are fresh in either case.
-/

namespace Cnine.TM

variable {α : Type _}

/-- The nodes alive, by address; `next` is above all addresses used (combinatorial/labeled_tree.hpp:27-28, 52, 98). -/
structure Heap (α : Type _) where
  next : Nat
  obj : Nat → Option (α × List Nat)

/-- `new labeled_tree` (combinatorial/labeled_tree.hpp:52, 98). -/
def alloc (h : Heap α) (x : α × List Nat) : Heap α := ⟨h.next + 1, fun b => if b = h.next then some x else h.obj b⟩

/-- The storage of a node is given back, after its destructor (combinatorial/labeled_tree.hpp:32). -/
def free (h : Heap α) (p : Nat) : Heap α := { h with obj := fun b => if b = p then none else h.obj b }

/-- combinatorial/labeled_tree.hpp:49-53: the copies of the nodes `ps`, which become the children of the new node. -/
def copy : Nat → Heap α → List Nat → Res (Heap α × List Nat)
  | 0, _, _ => .ub
  | _ + 1, h, [] => .ok (h, [])
  | fuel + 1, h, p :: ps =>
    match h.obj p with
    | none => .ub
    | some x => do
      let r ← copy fuel h x.2
      let s ← copy fuel (alloc r.1 (x.1, r.2)) ps
      .ok (s.1, r.1.next :: s.2)

/-- combinatorial/labeled_tree.hpp:30-33: `delete` of the nodes `ps`, each of which deletes its children first. -/
def destroy : Nat → Heap α → List Nat → Res (Heap α)
  | 0, _, _ => .ub
  | _ + 1, h, [] => .ok h
  | fuel + 1, h, p :: ps =>
    match h.obj p with
    | none => .ub
    | some x => do
      let h1 ← destroy fuel h x.2
      destroy fuel (free h1 p) ps

/-- combinatorial/labeled_tree.hpp:55-59: the children of the new tree and those `x` is left with. -/
def move (x : List Nat) : List Nat × List Nat := (x, [])

/-- combinatorial/labeled_tree.hpp:96-97: the loop of `branch`, and of `branchp` (90-91). -/
def find [DecidableEq α] (h : Heap α) (l : α) : List Nat → Res (Option Nat)
  | [] => .ok none
  | p :: ps =>
    match h.obj p with
    | none => .ub
    | some x => if x.1 = l then .ok (some p) else find h l ps

/-- combinatorial/labeled_tree.hpp:95-101 `branch(x)` of a node with the children `ps`: the child, and the children afterwards. -/
def branch [DecidableEq α] (h : Heap α) (l : α) (ps : List Nat) : Res (Heap α × Nat × List Nat) := do
  match ← find h l ps with
  | some p => .ok (h, p, ps)
  | none => .ok (alloc h (l, []), h.next, ps ++ [h.next])

end Cnine.TM
