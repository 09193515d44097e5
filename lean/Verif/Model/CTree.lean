import Verif.Model.Basic
import Verif.Model.OMap
import Mathlib.Data.List.Lex
import Mathlib.Data.Char
import Mathlib.Data.Finset.Insert

/-!
# The newer einsum strings and contraction trees

`EinsumForm` reads strings such as `"ij,jk->ik"` or `"(c1)j,jk->(c1)k"`; `ContractionTree` is a tree of contractions of the operands and
`ContractionTrees` lists the trees for all orders of contraction.  Strings are lists of characters, ordered by their codes as
`std::string` is.  `std::set<int>` is a `Finset`.  A `std::set<shared_ptr<…>>` is ordered by address: where a new node comes to lie among
the others is left open, `place` decides it.
-/

namespace Cnine
namespace CT

/-- A token (einsum/EinsumForm.hpp:29-30). -/
abbrev Tok := List Char

/-- `r[k].push_back(i)` (einsum/EinsumForm.hpp:137,143). -/
def pushAt (k : Tok) (i : Nat) (m : OMap Tok (List Nat)) : OMap Tok (List Nat) := OMap.set k ((OMap.find? k m).getD [] ++ [i]) m

/-- einsum/EinsumForm.hpp:133-146, first loop of `tokenize(str)`: `s` is what is left of the string, `i` the number of tokens read;
`fuel` is at least the length of `s`. -/
def scan : Nat → List Char → Nat → OMap Tok (List Nat) → Res (OMap Tok (List Nat))
  | 0, _, _, r => .ok r
  | _ + 1, [], _, r => .ok r
  | k + 1, c :: s, i, r =>
    if c ≠ '(' then scan k s (i + 1) (pushAt [c] i r)
    else if ')' ∈ s then scan k ((s.dropWhile (· ≠ ')')).drop 1) (i + 1) (pushAt (s.takeWhile (· ≠ ')')) i r)
    else .throw

/-- `dict` and `tokens` (einsum/EinsumForm.hpp:29-30). -/
structure Names where
  dict : OMap Tok Nat
  tokens : List Tok

/-- einsum/EinsumForm.hpp:149-156: the number of a token; a new token gets the next number. -/
def Names.number (st : Names) (t : Tok) : Nat × Names :=
  match OMap.find? t st.dict with
  | some id => (id, st)
  | none => (st.dict.length, ⟨OMap.set t st.dict.length st.dict, st.tokens ++ [t]⟩)

/-- einsum/EinsumForm.hpp:148-159, second loop of `tokenize(str)`. -/
def numberAll : Names → OMap Tok (List Nat) → Names × List Nat × List (List Nat)
  | st, [] => (st, [], [])
  | st, (t, v) :: r =>
    let a := st.number t
    let b := numberAll a.2 r
    (b.1, a.1 :: b.2.1, v :: b.2.2)

/-- einsum/EinsumForm.hpp:129-162 `tokenize(str)`: the tuple of numbers and the places of each in the string. -/
def tokenize (st : Names) (s : List Char) : Res (Names × List Nat × List (List Nat)) := do
  let r ← scan s.length s 0 []
  .ok (numberAll st r)

/-- einsum/EinsumForm.hpp:59-67: `tokenize` for one string after the other. -/
def tokenizeAll : Names → List (List Char) → Res (Names × List (List Nat) × List (List (List Nat)))
  | st, [] => .ok (st, [], [])
  | st, s :: l => do
    let a ← tokenize st s
    let b ← tokenizeAll a.1 l
    .ok (b.1, a.2.1 :: b.2.1, a.2.2 :: b.2.2)

/-- `str.find("->")`: what is before and what is after the first arrow (einsum/EinsumForm.hpp:44-48). -/
def arrow : List Char → Option (List Char × List Char)
  | '-' :: '>' :: s => some ([], s)
  | c :: s => (arrow s).map fun p => (c :: p.1, p.2)
  | [] => none

/-- einsum/EinsumForm.hpp:50-57: the loop `while(offs<lhs.size())`; `s` is `lhs` from `offs` on, `fuel` at least its length. -/
def pieces : Nat → List Char → List (List Char)
  | 0, _ => []
  | _ + 1, [] => []
  | k + 1, s => s.takeWhile (· ≠ ',') :: pieces k ((s.dropWhile (· ≠ ',')).drop 1)

/-- einsum/EinsumForm.hpp:29-39, the fields of `EinsumForm`. -/
structure Form where
  tokens : List Tok
  args : List (List Nat)
  places : List (List (List Nat))
  occurrences : List (List Nat)
  summations : List (List Nat)
  transfers : List (List (Nat × Nat))
  contraction : List Nat
  convolution : List Nat

/-- einsum/EinsumForm.hpp:69-73: the operands (0 is the result) in which token `i` occurs. -/
def occ (args : List (List Nat)) (i : Nat) : List Nat := (List.range args.length).filter fun j => decide (i ∈ args.getD j [])

/-- einsum/EinsumHelpers.hpp:35-39 `ix_tuple::find(x)`. -/
def find (a : List Nat) (x : Nat) : Res Nat := if x ∈ a then .ok (a.idxOf x) else .throw

/-- einsum/EinsumForm.hpp:94-96: the pairs (operand, position) of a transferred token. -/
def pairsOf (args : List (List Nat)) (i : Nat) : List Nat → Res (List (Nat × Nat))
  | [] => .ok []
  | j :: l => do
    let p ← find (args.getD j []) i
    let r ← pairsOf args i l
    .ok ((j, p) :: r)

/-- einsum/EinsumForm.hpp:79-104: what token `i` is used for. -/
def classify (f : Form) (i : Nat) : Res Form := do
  match f.occurrences.getD i [] with
  | [] => .ub
  | [j] =>
    let p ← find (f.args.getD j []) i
    .ok { f with summations := f.summations.modify j (· ++ [p]) }
  | 0 :: l =>
    let t := f.tokens.getD i []
    if t.length = 2 ∧ t.head? = some 'c' then do
      Res.assrt (decide (l.length + 1 = 3))
      .ok { f with convolution := f.convolution ++ [i] }
    else do
      let v ← pairsOf f.args i (0 :: l)
      .ok { f with transfers := f.transfers ++ [v] }
  | _ => .ok { f with contraction := f.contraction ++ [i] }

/-- einsum/EinsumForm.hpp:42-109 `EinsumForm(str)`. -/
def form (s : List Char) : Res Form := do
  match arrow s with
  | none => .throw
  | some (lhs, rhs) =>
    let r ← tokenizeAll ⟨[], []⟩ (rhs :: pieces lhs.length lhs)
    let f : Form := ⟨r.1.tokens, r.2.1, r.2.2, (List.range r.1.tokens.length).map (occ r.2.1), r.2.1.map fun _ => [], [], [], []⟩
    Res.forM (List.range r.1.tokens.length) f classify

/-- einsum/EinsumHelpers.hpp:41-51 `ix_tuple::unpack(mapping)`; reading beyond the tuple is undefined. -/
def unpack (a : List Nat) (mapping : List (List Nat)) : Res (List Nat) :=
  let n := mapping.foldl (fun n p => p.foldl (fun n q => if n ≤ q then q + 1 else n) n) 0
  Res.forM (List.range mapping.length) (List.replicate n 0) fun r i =>
    Res.forM (mapping.getD i []) r fun r q =>
      match a[i]? with
      | none => .ub
      | some x => .ok (r.set q x)

/-- einsum/EinsumHelpers.hpp:53-62 `ix_tuple::operator<`. -/
def tupleLt (a b : List Nat) : Bool :=
  if a.length < b.length then true
  else if b.length < a.length then false
  else go a b
where
  /-- The loop of lines 57-60. -/
  go : List Nat → List Nat → Bool
    | x :: a, y :: b => if x < y then true else if y < x then false else go a b
    | _, _ => false

/-- einsum/ContractionNode.hpp:15-33: a node is an operand or a contraction of other nodes. -/
inductive Node where
  | arg (argId : Nat) (indices : List Nat) (name : Tok)
  | con (index : Nat) (token : Tok) (indices : List Nat) (external internal : Finset Nat) (level : Nat) (children : List Node)

namespace Node

/-- einsum/ContractionNode.hpp:18 `indices`. -/
def indices : Node → List Nat
  | .arg _ l _ => l
  | .con _ _ l _ _ _ _ => l

/-- einsum/ContractionNode.hpp:24 `level`, zero for operands. -/
def level : Node → Nat
  | .arg .. => 0
  | .con _ _ _ _ _ l _ => l

/-- einsum/ContractionNode.hpp:22 `children`. -/
def children : Node → List Node
  | .arg .. => []
  | .con _ _ _ _ _ _ c => c

/-- einsum/ContractionNode.hpp:19, 29-33 `external_indices`. -/
def external : Node → Finset Nat
  | .arg _ l _ => l.toFinset
  | .con _ _ _ e _ _ _ => e

/-- einsum/ContractionNode.hpp:20 `internal_indices`. -/
def internal : Node → Finset Nat
  | .arg .. => ∅
  | .con _ _ _ _ i _ _ => i

/-- einsum/ContractionNode.hpp:39-47: the loop that collects the indices of the children. -/
def collect (c : Nat) (l : List Nat) (q : Nat) : List Nat := if q ≠ c ∧ q ∉ l then l ++ [q] else l

/-- einsum/ContractionNode.hpp:35-55 `ContractionNode(index,token,children)`. -/
def contract (c : Nat) (t : Tok) (ch : List Node) : Node :=
  let l := ch.foldl (fun l p => p.indices.foldl (collect c) l) []
  let ext := fun p => ch.all fun q => decide (p ∈ q.indices)
  .con c t l (l.filter ext).toFinset (l.filter fun p => !ext p).toFinset (ch.foldl (fun n p => max n p.level) 0 + 1) ch

end Node

/-- Inserting into a set that is ordered by address (einsum/ContractionTree.hpp:35,73). -/
def insertAt (n : Node) (p : Nat) (l : List Node) : List Node := l.take p ++ n :: l.drop p

/-- einsum/ContractionTree.hpp:28-30, the fields of `ContractionTree`. -/
structure Tree where
  root : Option Node
  frontier : List Node
  levels : OMap Nat (Finset Nat)

/-- einsum/ContractionTree.hpp:32-36 `ContractionTree(form)`: `make_shared` takes `i` by reference and reads it after `i++`, so the
first node gets the number 1; `string(char,1)` is a string of that many characters with code 1.  The result `args[0]` is inserted
as well. -/
def Tree.start (place : Nat → Nat) (args : List (List Nat)) : Tree :=
  ⟨none, (List.range args.length).foldl
    (fun l i => insertAt (.arg (i + 1) (args.getD i []) (List.replicate ('A'.toNat + i) (Char.ofNat 1))) (place i) l) [], []⟩

/-- einsum/ContractionTree.hpp:42-50 `levelwise_equal(x)`. -/
def Tree.levelwise (a b : Tree) : Bool :=
  decide (a.levels.length = b.levels.length) && a.levels.all fun p =>
    match OMap.find? p.1 b.levels with
    | none => false
    | some q => decide (p.2 = q)

/-- einsum/ContractionTree.hpp:62-79 `add_contraction(id,token)`. -/
def Tree.add (place : Nat) (t : Tree) (c : Nat) (tok : Tok) : Node × Tree :=
  let n := Node.contract c tok (t.frontier.filter fun p => decide (c ∈ p.indices))
  (n, ⟨t.root, insertAt n place (t.frontier.filter fun p => !decide (c ∈ p.indices)),
    OMap.set n.level (insert c ((OMap.find? n.level t.levels).getD ∅)) t.levels⟩)

/-- einsum/ContractionTrees.hpp:53-57: one round of the loop, the tree for the next recursion.  `path` are the contractions made so far:
every node is made once for every path. -/
def Tree.next (place : List Nat → Nat) (tokens : List Tok) (path : List Nat) (last : Bool) (t : Tree) (c : Nat) : Tree :=
  let a := t.add (place (path ++ [c])) c (tokens.getD c [])
  if last then { a.2 with root := some a.1 } else a.2

/-- einsum/ContractionTrees.hpp:45-62 `build_trees(tree,rem)`; `fuel` is the length of `rem`. -/
def build (place : List Nat → Nat) (tokens : List Tok) : Nat → List Nat → Tree → List Nat → List Tree → List Tree
  | 0, _, t, _, trees => if trees.any fun x => t.levelwise x then trees else trees ++ [t]
  | k + 1, path, t, rem, trees =>
    (List.range rem.length).foldl (fun trees i =>
      let c := rem.getD i 0
      build place tokens k (path ++ [c]) (t.next place tokens path (rem.length == 1) c) (rem.eraseIdx i) trees) trees

/-- einsum/ContractionTrees.hpp:35-39 `ContractionTrees(form)`. -/
def trees (place0 : Nat → Nat) (place : List Nat → Nat) (f : Form) : List Tree :=
  build place f.tokens f.contraction.length [] (Tree.start place0 f.args) f.contraction []

/-- einsum/ContractionTree.hpp:92-97 `str()` asserts that there is a root. -/
def Tree.strOk (t : Tree) : Res Unit := Res.assrt t.root.isSome

end CT
end Cnine
