import Verif.Model.Basic

/-!
# Prefix trees (combinatorial/PrefixTree.hpp)

A node is its map of children; the map is a list of keys and nodes whose order stands for the iteration order of
`std::unordered_map`.
-/

namespace Cnine

/-- combinatorial/PrefixTree.hpp:23-27: the children of a node: a key with its node, and the other children. -/
inductive PT (α : Type) where
  /-- No more children. -/
  | nil
  /-- A child, then the rest of the children. -/
  | cons (key : α) (child : PT α) (rest : PT α)
  deriving Repr, DecidableEq

namespace PT

variable {α : Type} [DecidableEq α]

/-- combinatorial/PrefixTree.hpp:85-89: `branch`. -/
def branch (x : α) : PT α → Option (PT α)
  | nil => none
  | cons y c r => if x = y then some c else branch x r

/-- `children[x]=c` (combinatorial/PrefixTree.hpp:43, 94). -/
def setB (x : α) (c : PT α) : PT α → PT α
  | nil => cons x c nil
  | cons y d r => if x = y then cons y c r else cons y d (setB x c r)

/-- combinatorial/PrefixTree.hpp:59-64: `find` of a path. -/
def find : PT α → List α → Bool
  | _, [] => true
  | t, x :: xs =>
    match branch x t with
    | none => false
    | some p => p.find xs

/-- combinatorial/PrefixTree.hpp:98-101 with `get_branch` (91-96): `add_path`. -/
def addPath : PT α → List α → PT α
  | t, [] => t
  | t, x :: xs =>
    match branch x t with
    | some p => setB x (p.addPath xs) t
    | none => setB x (addPath nil xs) t

/-- combinatorial/PrefixTree.hpp:41-44: the copy constructor; `acc` is the new map so far. -/
def copyInto : PT α → PT α → PT α
  | nil, acc => acc
  | cons x c r, acc => copyInto r (setB x (copyInto c nil) acc)

/-- combinatorial/PrefixTree.hpp:109: a node without children is the end of a maximal path. -/
def here (pre : List α) : PT α → List (List α)
  | nil => [pre]
  | cons _ _ _ => []

/-- combinatorial/PrefixTree.hpp:110-114: the loop of `for_each_maximal_path` over the children, with the test of line 109 for the child. -/
def kids : PT α → List α → List (List α)
  | nil, _ => []
  | cons x c r, pre => here (pre ++ [x]) c ++ kids c (pre ++ [x]) ++ kids r pre

/-- combinatorial/PrefixTree.hpp:103-115: `for_each_maximal_path`; the arguments of the calls in order. -/
def maxPaths (t : PT α) : List (List α) := here [] t ++ kids t []

/-- combinatorial/PrefixTree.hpp:117-122: `depth_first`. -/
def depthFirst : PT α → List α
  | nil => []
  | cons x c r => x :: (depthFirst c ++ depthFirst r)

/-- combinatorial/PrefixTree.hpp:124-131: `depth_first` with positions, from the loop state `j` on: the calls of `lambda` and the
value returned. -/
def depthIx : PT α → Int → Int → List (α × Int) × Int
  | nil, _, j => ([], j)
  | cons x c r, ix, j =>
    let a := depthIx c (ix + j + 1) 0
    let b := depthIx r ix (j + (a.2 + 1))
    ((x, ix) :: (a.1 ++ b.1), b.2)

/-- combinatorial/PrefixTree.hpp:160-169: `str`, as the list of entries printed per line.  `x.size()-1` is unsigned: for an empty path
the loop runs over the end. -/
def strLines (t : PT α) : Res (List (List α)) :=
  Res.forM (maxPaths t) [] fun acc x => if x.length = 0 then .ub else .ok (acc ++ [x])

/-- The children of one node followed by others: what `children.push_back` does (combinatorial/labeled_tree.hpp:103-105). -/
def app : PT α → PT α → PT α
  | nil, t => t
  | cons x c r, t => cons x c (app r t)

end PT

end Cnine
