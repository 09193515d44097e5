import Verif.Model.Maps
import Verif.Model.Pool
import Verif.Model.Sparse
import Verif.Model.PrefixTree

/-!
# Sparse graphs (combinatorial/sparse_graph.hpp)

Keys are `int`.  Labels and degrees are not modelled.  `is_neighbor` (line 224-226) does not compile when used: `is_filled` is a
member of a dependent base.
-/

namespace Cnine

/-- combinatorial/sparse_graph.hpp:29-37: the number of vertices and the rows. -/
structure SGraph (α : Type) where
  n : Int
  data : MoM Int Int α
  deriving Repr, DecidableEq

namespace SGraph

variable {α : Type}

/-- combinatorial/sparse_graph.hpp:51-52. -/
def new (n : Int) : SGraph α := ⟨n, []⟩

/-- combinatorial/sparse_graph.hpp:228-231. -/
def set (g : SGraph α) (i j : Int) (v : α) : SGraph α := { g with data := (g.data.set i j v).set j i v }

/-- combinatorial/sparse_graph.hpp:72-78 (= 59-65): the constructor from pairs; `one` is `1.0`. -/
def ofPairs (one : α) (n : Int) (l : List (Int × Int)) : SGraph α :=
  l.foldl (fun g p => (g.set p.1 p.2 one).set p.2 p.1 one) (new n)

/-- combinatorial/sparse_graph.hpp:67-70 (= 54-57): the number of vertices is one more than the largest key, at least 1. -/
def ofPairsMax (one : α) (l : List (Int × Int)) : SGraph α :=
  ofPairs one (l.foldl (fun t p => max (max p.1 p.2) t) 0 + 1) l

/-- combinatorial/sparse_graph.hpp:117-123: `complete(n)`. -/
def complete (one : α) (n : Nat) : SGraph α :=
  ofPairs one n ((List.range n).flatMap fun (i : Nat) => (List.range i).map fun (j : Nat) => ((i : Int), (j : Int)))

/-- combinatorial/sparse_graph.hpp:125-131: `cycle(n)`. -/
def cycle (one : α) (n : Nat) : SGraph α :=
  ofPairs one n (((List.range (n - 1)).map fun (i : Nat) => ((i : Int), (i : Int) + 1)) ++ [((n : Int) - 1, 0)])

/-- combinatorial/sparse_graph.hpp:133-138: `star(m)`. -/
def star (one : α) (m : Nat) : SGraph α :=
  ofPairs one (m + 1) ((List.range m).map fun (i : Nat) => (0, (i : Int) + 1))

/-- combinatorial/sparse_graph.hpp:156-163: from a square tensor with entries `x i j` (the lower triangle is read). -/
def ofDense [Zero α] [DecidableEq α] (n : Nat) (x : Nat → Nat → α) : SGraph α :=
  ((List.range n).flatMap fun (i : Nat) => (List.range (i + 1)).map fun (j : Nat) => (i, j)).foldl
    (fun g p => if x p.1 p.2 ≠ 0 then g.set p.1 p.2 (x p.1 p.2) else g) (new n)

/-- combinatorial/sparse_graph.hpp:165-170: `dense()`, as the memory of the row-major result. -/
def dense [Zero α] (g : SGraph α) : Res (Arr α) := SpMat.store g.n g.data.forEach (SpMat.zeros g.n g.n)

/-- combinatorial/sparse_graph.hpp:208-210. -/
def nedges (g : SGraph α) : Int := (g.data.size / 2 : Nat)

/-- `data[i]` on the mutable map (e.g. combinatorial/sparse_graph.hpp:221, 249, 294, 305): an absent row is inserted. -/
def row (g : SGraph α) (i : Int) : UMap Int α × SGraph α :=
  match UMap.find? i g.data with
  | some r => (r, g)
  | none => ([], { g with data := UMap.set i [] g.data })

/-- combinatorial/sparse_graph.hpp:220-222: `nneighbors(i)`, with the graph afterwards. -/
def nneighbors (g : SGraph α) (i : Int) : Nat × SGraph α := ((g.row i).1.length, (g.row i).2)

/-- combinatorial/sparse_graph.hpp:247-253: `neighbors(i)`, with the graph afterwards. -/
def neighbors (g : SGraph α) (i : Int) : List Int × SGraph α := ((g.row i).1.map Prod.fst, (g.row i).2)

/-- combinatorial/sparse_graph.hpp:263-270 for graphs without labels and degrees. -/
def eq [DecidableEq α] (g x : SGraph α) : Bool := decide (g.n = x.n) && g.data.beq x.data

/-- combinatorial/sparse_graph.hpp:281-283 (277-279 without the value): `for_each_edge`, the arguments of the calls. -/
def forEachEdge (g : SGraph α) : List (Int × Int × α) := g.data.forEach.filter fun e => decide (e.1 ≤ e.2.1)

/-- `v[i]` (combinatorial/sparse_graph.hpp:260). -/
def vat (v : List Int) (i : Int) : Res Int :=
  if i < 0 then .ub else
  match v[i.toNat]? with
  | some x => .ok x
  | none => .ub

/-- combinatorial/sparse_graph.hpp:255-261: `insert(H,v)` for another graph `H`. -/
def insert (g h : SGraph α) (v : List Int) : Res (SGraph α) :=
  Res.assrt (∀ p ∈ v, p < g.n) >>= fun _ =>
  Res.forM h.forEachEdge g fun g e => vat v e.1 >>= fun a => vat v e.2.1 >>= fun b => .ok (g.set a b e.2.2)

/-- combinatorial/sparse_graph.hpp:180-186: the loop of `as_int_pool` over `k` rows from row `i` on. -/
def poolLoop (g : SGraph α) : Nat → Int → Arr Int → Int → Res (Arr Int)
  | 0, _, a, _ => .ok a
  | k + 1, i, a, tail =>
    let r := ((UMap.find? i g.data).getD []).map Prod.fst
    a.wrList tail r >>= fun a => a.wr (i + 2) (tail + r.length) >>= fun a => poolLoop g k (i + 1) a (tail + r.length)

/-- combinatorial/sparse_graph.hpp:173-189: `as_int_pool()`. -/
def asIntPool (g : SGraph α) : Res IntPool :=
  IntPool.mk' g.n (2 * g.nedges) >>= fun p =>
  p.arr.wr 1 (g.n + 2) >>= fun a =>
  poolLoop g g.n.toNat 0 a (g.n + 2) >>= fun a => .ok { p with arr := a }

/-- combinatorial/sparse_graph.hpp:195-196: `k` entries of row `i` from entry `j` on. -/
def readRow (one : α) (x : IntPool) (i : Int) : Nat → Int → SGraph α → Res (SGraph α)
  | 0, _, g => .ok g
  | k + 1, j, g => x.get i j >>= fun y => readRow one x i k (j + 1) (g.set i y one)

/-- combinatorial/sparse_graph.hpp:193-197: `k` rows from row `i` on. -/
def readRows (one : α) (x : IntPool) : Nat → Int → SGraph α → Res (SGraph α)
  | 0, _, g => .ok g
  | k + 1, i, g => x.sizeOf i >>= fun m => readRow one x i m.toNat 0 g >>= fun g => readRows one x k (i + 1) g

/-- combinatorial/sparse_graph.hpp:191-198: the constructor from an `int_pool`. -/
def ofIntPool (one : α) (x : IntPool) : Res (SGraph α) := readRows one x x.n.toNat 0 (new x.n)

/-! ### Spanning trees -/

/-- `matched[i]` for `vector<bool>` (combinatorial/sparse_graph.hpp:293, 296, 307); `none` is out of range. -/
def bit (m : List Bool) (i : Int) : Option Bool := if i < 0 then none else m[i.toNat]?

/-- combinatorial/sparse_graph.hpp:305-310 (= 294-299): the loop over the entries of a row; `rec` is the recursive call. -/
def treeLoop [Zero α] [DecidableEq α] (rec : Int → List Bool → Res (PT Int × List Bool)) :
    UMap Int α → List Bool → Res (PT Int × List Bool)
  | [], m => .ok (.nil, m)
  | (u, w) :: l, m =>
    if w = 0 then treeLoop rec l m else
    match bit m u with
    | none => .ub
    | some true => treeLoop rec l m
    | some false =>
      rec u (m.set u.toNat true) >>= fun c =>
      treeLoop rec l c.2 >>= fun r => .ok (.cons u c.1 r.1, r.2)

/-- combinatorial/sparse_graph.hpp:303-312: the recursive `greedy_spanning_tree(v,matched)`: the children of the node labelled `v`,
and `matched` afterwards.  (Rows that `data[v]` inserts do not change the result.)  `fuel` bounds the depth; running out is `ub`. -/
def treeRec [Zero α] [DecidableEq α] (g : SGraph α) : Nat → Int → List Bool → Res (PT Int × List Bool)
  | 0, _, _ => .ub
  | f + 1, v, m => treeLoop (treeRec g f) (g.row v).1 m

/-- combinatorial/sparse_graph.hpp:289-301: `greedy_spanning_tree(root)`: the children of the root. -/
def greedyTree [Zero α] [DecidableEq α] (g : SGraph α) (root : Int) : Res (PT Int) :=
  match bit (List.replicate g.n.toNat false) root with
  | none => .ub
  | some _ => treeRec g (g.n.toNat + 1) root ((List.replicate g.n.toNat false).set root.toNat true) >>= fun r => .ok r.1

end SGraph

end Cnine
