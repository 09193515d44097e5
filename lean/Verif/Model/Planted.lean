import Verif.Model.Graph
import Verif.Model.LabeledTree

/-!
# Searching a graph for copies of another (combinatorial/FindPlantedSubgraphs.hpp)

Graphs without labels and degrees (lines 90 and 91 then do nothing).  Rows inserted by `data[v]` do not change any weight or row and are
not kept.
-/

namespace Cnine.Planted

variable {α : Type} [Zero α] [DecidableEq α]

/-- `G(i,j)` (containers/map_of_maps.hpp: `operator()`, a missing entry is 0). -/
def weight (g : SGraph α) (i j : Int) : α := g.data.get 0 i j

/-- `v[i]` for a `vector`. -/
def at_ {β : Type} (v : List β) (i : Int) : Res β :=
  if i < 0 then .ub else
  match v[i.toNat]? with
  | some x => .ok x
  | none => .ub

/-- combinatorial/FindPlantedSubgraphs.hpp:93-98: the loop over the row of `v` in `H`; `false` stands for `return false`. -/
def checkH (g : SGraph α) (asg : List Int) (w : Int) : UMap Int α → Res Bool
  | [] => .ok true
  | (u, x) :: l =>
    at_ asg u >>= fun a =>
    if a = -1 then checkH g asg w l else if x ≠ weight g w a then .ok false else checkH g asg w l

/-- combinatorial/FindPlantedSubgraphs.hpp:101-107: the loop over the row of `w` in `G`. -/
def checkG (h : SGraph α) (asg : List Int) (v : Int) : UMap Int α → Bool
  | [] => true
  | (u, x) :: l =>
    match asg.findIdx? (fun a => a == u) with
    | none => checkG h asg v l
    | some k => if x ≠ weight h v k then false else checkG h asg v l

/-- combinatorial/FindPlantedSubgraphs.hpp:125-133: the loop over the neighbours; `kids` are the children of the node so far and `rec`
the recursive call (with the function putting a tree in the place of the new child). -/
def subLoop (rec : (PT Int → PT Int) → Int → List Int → Res (Option (PT Int) × List Int)) (ctx : PT Int → PT Int) (w : Int) :
    List Int → PT Int → List Int → Res (PT Int × List Int)
  | [], kids, asg => .ok (kids, asg)
  | u :: us, kids, asg =>
    if u ∈ asg then subLoop rec ctx w us kids asg else
    rec (fun t => ctx (.cons w (kids.app t) .nil)) u asg >>= fun r =>
    match r.1 with
    | none => subLoop rec ctx w us kids r.2
    | some c => subLoop rec ctx w us (kids.app (.cons u c .nil)) r.2

/-- combinatorial/FindPlantedSubgraphs.hpp:122-136: the part of `make_subtree` from line 122 on. -/
def descend (g : SGraph α) (tr : List (Int × Int)) (rec : (PT Int → PT Int) → Int → List Int → Res (Option (PT Int) × List Int))
    (ctx : PT Int → PT Int) (v w : Int) (m : Nat) (asg : List Int) : Res (Option (PT Int) × List Int) :=
  at_ tr ((m : Int) + 1) >>= fun e =>
  at_ tr e.2 >>= fun e =>
  at_ asg e.1 >>= fun np =>
  subLoop rec ctx w (g.neighbors np).1 .nil asg >>= fun r =>
  .ok (if r.1 = .nil then none else some r.1, r.2.set v.toNat (-1))

/-- combinatorial/FindPlantedSubgraphs.hpp:109-120: the part from the assignment on. -/
def assign (g : SGraph α) (n : Int) (tr : List (Int × Int)) (rec : (PT Int → PT Int) → Int → List Int → Res (Option (PT Int) × List Int))
    (ctx : PT Int → PT Int) (v w : Int) (m : Nat) (asg : List Int) : Res (Option (PT Int) × List Int) :=
  at_ asg v >>= fun _ =>
  let asg := asg.set v.toNat w
  if (m : Int) = n - 1 then
    .ok (if (ctx (.cons (-1) .nil .nil)).containsVec asg then none else some .nil, asg.set v.toNat (-1))
  else descend g tr rec ctx v w m asg

/-- combinatorial/FindPlantedSubgraphs.hpp:84-137: `make_subtree(node,m)` for the new node with label `w`.  `ctx t` is the forest
`matches` with `t` in the place of the node.  The result is `none` for `false`, or the children of the node for `true`; and
`assignment`.  `fuel` bounds the depth; line 86 stops the recursion before it runs out. -/
def makeSubtree (g h : SGraph α) (tr : List (Int × Int)) : Nat → Nat → (PT Int → PT Int) → Int → List Int →
    Res (Option (PT Int) × List Int)
  | 0, _, _, _, _ => .throw
  | f + 1, m, ctx, w, asg =>
    Res.assrt (m < tr.length) >>= fun _ =>
    at_ tr m >>= fun e =>
    checkH g asg w (h.row e.1).1 >>= fun ok =>
    if ok = false then .ok (none, asg) else
    if checkG h asg e.1 (g.row w).1 = false then .ok (none, asg) else
    assign g h.n tr (makeSubtree g h tr f (m + 1)) ctx e.1 w m asg

/-- combinatorial/FindPlantedSubgraphs.hpp:51-58: the loop over the vertices `i`, `i+1`, … of `G` (`k` of them). -/
def rootLoop (g h : SGraph α) (tr : List (Int × Int)) : Nat → Int → PT Int → List Int → Res (PT Int)
  | 0, _, F, _ => .ok F
  | k + 1, i, F, asg =>
    makeSubtree g h tr (tr.length + 1) 0 (fun t => F.app t) i asg >>= fun r =>
    match r.1 with
    | none => rootLoop g h tr k (i + 1) F r.2
    | some c => rootLoop g h tr k (i + 1) (F.app (.cons i c .nil)) r.2

/-- combinatorial/FindPlantedSubgraphs.hpp:45-59: the constructor; the result is `matches`. -/
def find (g h : SGraph α) : Res (PT Int) :=
  SGraph.greedyTree h 0 >>= fun S =>
  rootLoop g h (LTree.depthIx ⟨0, S⟩) g.n.toNat 0 .nil (List.replicate h.n.toNat (-1))

/-- combinatorial/FindPlantedSubgraphs.hpp:61-66. -/
def nmatches (F : PT Int) : Int := (F.kids []).length

/-- combinatorial/FindPlantedSubgraphs.hpp:69-78: the rows of the tensor. -/
def rows (h : SGraph α) (F : PT Int) : Res (List (List Int)) :=
  Res.forM (F.kids []) [] fun R x => if (x.length : Int) < h.n then .ub else .ok (R ++ [x.take h.n.toNat])

end Cnine.Planted
