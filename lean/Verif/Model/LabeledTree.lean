import Verif.Model.PrefixTree
import Verif.Model.Pool
import Mathlib.Data.List.Dedup

/-!
# Labelled trees and forests, trees in an array
(combinatorial/labeled_tree.hpp, combinatorial/labeled_forest.hpp, combinatorial/int_tree.hpp)

A labelled forest is a `PT`: the label of its first tree, the children of that tree, and the other trees.  A labelled tree is a label
with the forest of its children.
-/

namespace Cnine

/-- combinatorial/labeled_tree.hpp:23-28. -/
structure LTree (α : Type) where
  label : α
  kids : PT α
  deriving Repr, DecidableEq

namespace PT

variable {α : Type} [DecidableEq α]

/-- combinatorial/labeled_tree.hpp:132-146 for every tree of a forest in turn (combinatorial/labeled_forest.hpp:39-44, and the loop
140-143 over the children); the `std::set` is the list of its elements. -/
def containsSet : PT α → List α → Bool
  | nil, _ => false
  | cons x c r, s =>
    (if x ∈ s then (if s.length = 1 then true else containsSet c (s.erase x)) else false) || containsSet r s

/-- combinatorial/labeled_forest.hpp:34-37. -/
def containsVec (t : PT α) (x : List α) : Bool := containsSet t x.dedup

/-- combinatorial/labeled_tree.hpp:191-195: the loop over the children, from `j` on: the calls of `lambda` and the final `j`. -/
def ixLoop : PT α → Int → Int → List (α × Int) × Int
  | nil, _, j => ([], j)
  | cons x c r, ix, j =>
    let a := ixLoop c (ix + j) 1
    let b := ixLoop r ix (j + a.2)
    ((x, ix) :: (a.1 ++ b.1), b.2)

/-- The number of trees. -/
def width : PT α → Nat
  | nil => 0
  | cons _ _ r => width r + 1

end PT

namespace LTree

variable {α : Type} [DecidableEq α]

/-- The forest with this tree only. -/
def forest (t : LTree α) : PT α := .cons t.label t.kids .nil

/-- combinatorial/labeled_tree.hpp:107-110 with `branch` (95-101). -/
def addPath (t : LTree α) (x : List α) : LTree α := { t with kids := t.kids.addPath x }

/-- combinatorial/labeled_tree.hpp:120-125 with `branchp` (89-93). -/
def contains (t : LTree α) (x : List α) : Bool := t.kids.find x

/-- combinatorial/labeled_tree.hpp:103-105. -/
def pushBack (t s : LTree α) : LTree α := { t with kids := t.kids.app s.forest }

/-- combinatorial/labeled_tree.hpp:127-130. -/
def containsVec (t : LTree α) (x : List α) : Bool := t.forest.containsVec x

/-- combinatorial/labeled_tree.hpp:169-180: the paths passed to `lambda`. -/
def maxPaths (t : LTree α) : List (List α) := t.forest.kids []

/-- combinatorial/labeled_tree.hpp:152-156 with 182-187. -/
def depthFirst (t : LTree α) : List α := t.label :: t.kids.depthFirst

/-- combinatorial/labeled_tree.hpp:158-163 with 189-196. -/
def depthIx (t : LTree α) : List (α × Int) := (t.label, -1) :: (t.kids.ixLoop 0 1).1

end LTree

/-! ### Trees in an array -/

namespace IntTree

/-- Write the entries `vs` at `i`, `i+1`, … by `set` (combinatorial/int_tree.hpp:149-153, 164-168). -/
def sets : List Int → Nat → AutoArray Int → Res (AutoArray Int)
  | [], _, a => .ok a
  | v :: vs, i, a => a.set i v >>= sets vs (i + 1)

/-- combinatorial/int_tree.hpp:146-155: `add_root(v,n)`; the node returned is at 0. -/
def addRoot (a : AutoArray Int) (v : Int) (n : Nat) : Res (AutoArray Int) :=
  Res.assrt (a.size = 0) >>= fun _ =>
  a.resize (n + 3) >>= sets (v :: (n : Int) :: -1 :: List.replicate n (-1)) 0

/-- combinatorial/int_tree.hpp:157-171: `add_node(parent,i,v,n)`, with the position of the new node. -/
def addNode (a : AutoArray Int) (parent i : Nat) (v : Int) (n : Nat) : Res (AutoArray Int × Nat) :=
  a.get (parent + 1) >>= fun r =>
  Res.assrt ((i : Int) < r.2) >>= fun _ =>
  r.1.get (parent + i + 3) >>= fun r =>
  Res.assrt (r.2 = -1) >>= fun _ =>
  let tail := r.1.size
  r.1.set (parent + i + 3) tail >>= fun a =>
  a.resize (tail + n + 3) >>= fun a =>
  sets (v :: (n : Int) :: (parent : Int) :: List.replicate n (-1)) tail a >>= fun a => .ok (a, tail)

/-- combinatorial/labeled_tree.hpp:78-82 (= 70-73): add the children, from child `i` on, to the node at `p`. -/
def addKids : PT Int → Nat → Nat → AutoArray Int → Res (AutoArray Int)
  | .nil, _, _, a => .ok a
  | .cons x c r, p, i, a =>
    addNode a p i x c.width >>= fun b => addKids c b.2 0 b.1 >>= fun a => addKids r p (i + 1) a

/-- combinatorial/labeled_tree.hpp:65-75: `as_int_tree()`. -/
def ofTree (t : LTree Int) : Res (AutoArray Int) := addRoot .empty t.label t.kids.width >>= addKids t.kids 0 0

/-- A value used as an index (`size_t`): a negative one is far beyond the end. -/
def index (x : Int) : Res Nat := if x < 0 then .ub else .ok x.toNat

/-- combinatorial/int_tree.hpp:193-194: the loop over `k` children from child `i` on; `rec` is the recursive call. -/
def kidsLoop (rec : AutoArray Int → Nat → List Int → Res (AutoArray Int × List Int)) (p : Nat) :
    Nat → Nat → AutoArray Int → List Int → Res (AutoArray Int × List Int)
  | 0, _, a, r => .ok (a, r)
  | k + 1, i, a, r =>
    a.get (p + 3 + i) >>= fun b => index b.2 >>= fun q => rec b.1 q r >>= fun c => kidsLoop rec p k (i + 1) c.1 c.2

/-- combinatorial/int_tree.hpp:190-195: `depth_first_traversal(p,r)`; `fuel` bounds the depth, running out is `ub`. -/
def dfs : Nat → AutoArray Int → Nat → List Int → Res (AutoArray Int × List Int)
  | 0, _, _, _ => .ub
  | f + 1, a, p, r =>
    a.get p >>= fun b => b.1.get (p + 1) >>= fun c => kidsLoop (dfs f) p c.2.toNat 0 c.1 (r ++ [b.2])

/-- combinatorial/int_tree.hpp:184-188: `depth_first_traversal()`. -/
def depthFirst (a : AutoArray Int) : Res (List Int) := dfs (a.size + 1) a 0 [] >>= fun r => .ok r.2

end IntTree

end Cnine
