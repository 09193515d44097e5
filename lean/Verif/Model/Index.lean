import Verif.Model.Basic

/-!
# Model of Gdims, Gindex, GstridesB, Gvec and GindexSet

Simplifications: `int`/`size_t` values are unbounded natural numbers (no overflow); dims entries are
non-negative.
-/

namespace Cnine

/-- include/Gdims.hpp:174-178 `Gdims::asize`: product of the entries. -/
def asize (dims : List Nat) : Nat := dims.foldl (fun t d => t * d) 1

/-- include/Gindex.hpp:79-82, the loop of `Gindex(size_t a, const Gdims&)`; the argument list is the
dims from last to first.  `a % 0` is undefined behaviour. -/
def decodeRev : Nat → List Nat → Res (List Nat)
  | _, [] => .ok []
  | a, d :: ds =>
    if d = 0 then .ub else do
      let r ← decodeRev (a / d) ds
      .ok (a % d :: r)

/-- include/Gindex.hpp:77-83 `Gindex(size_t a, const Gdims& dims)`. -/
def decode (a : Nat) (dims : List Nat) : Res (List Nat) := do
  let r ← decodeRev a dims.reverse
  .ok r.reverse

/-- include/Gindex.hpp:138-142, the loop of `to_int`; the list holds (index entry, dim) pairs from
last to first. -/
def encodeLoop : List (Nat × Nat) → Nat → Nat → Nat
  | [], _, t => t
  | (i, d) :: r, s, t => encodeLoop r (s * d) (t + i * s)

/-- include/Gindex.hpp:135-144 `Gindex::to_int(dims)` (also 124-133 `operator()(dims)`).
A dims vector shorter than the index violates the `assert` and would be read out of bounds. -/
def encode (ix dims : List Nat) : Res Nat :=
  if dims.length < ix.length then .ub
  else .ok (encodeLoop (ix.zip dims).reverse 1 0)

/-- include/GstridesB.hpp:102-109 `GstridesB(const Gdims&, s0)`: last stride `s0`,
`strides[i]=strides[i+1]*dims[i+1]`. -/
def rmStridesFrom (s0 : Nat) : List Nat → List Nat
  | [] => []
  | [_] => [s0]
  | _ :: d :: ds =>
    match rmStridesFrom s0 (d :: ds) with
    | [] => []
    | s :: r => (s * d) :: s :: r

/-- include/Gdims.hpp:335-343 `Gdims::strides()`, and `GstridesB(dims)` with the default `s0=1`. -/
def rmStrides (dims : List Nat) : List Nat := rmStridesFrom 1 dims

/-- include/Gdims.hpp:366-371: index of linear position `t` by successive division by the strides. -/
def divideBy : List Nat → Nat → Res (List Nat)
  | [], _ => .ok []
  | s :: ss, t =>
    if s = 0 then .ub else do
      let r ← divideBy ss (t - t / s * s)
      .ok (t / s :: r)

/-- include/Gdims.hpp:357-374 `foreach_index` (and `for_each_index` 349-355): the list of indices
passed to the callback, in call order. -/
def foreachIndex (dims : List Nat) : Res (List (List Nat)) :=
  match dims with
  | [] => .ok []
  | d :: ds =>
    match rmStrides (d :: ds) with
    | [] => .ub
    | s :: ss => (List.range (s * d)).foldr
        (fun i acc => do let ix ← divideBy (s :: ss) i; let r ← acc; .ok (ix :: r)) (.ok [])

/-- include/GstridesB.hpp:182-185, the loop of `offs(ix)`. -/
def offsLoop : List Nat → List Nat → Nat → Nat
  | s :: ss, i :: is, t => offsLoop ss is (t + s * i)
  | _, _, t => t

/-- include/GstridesB.hpp:180-186 `offs(ix)` and 172-178 `operator()(ix)`. -/
def offs (strides ix : List Nat) : Res Nat := do
  Res.assrt (ix.length ≤ strides.length)
  .ok (offsLoop strides ix 0)

/-- include/GstridesB.hpp:188-194 `offs(i, ix)`: the loop variable shadows the parameter `i`, and
the first term is `strides[0]`.  With no strides at all, `size()-1` wraps around, the assertion
passes and `strides[0]` is out of range. -/
def offsLead (strides : List Nat) (_i : Nat) (ix : List Nat) : Res Nat :=
  match strides with
  | [] => .ub
  | s0 :: ss => do
    Res.assrt (ix.length ≤ ss.length)
    .ok (offsLoop ss ix s0)

/-- include/GstridesB.hpp:142-150 `memsize(dims)`. -/
def memsize (strides dims : List Nat) : Res Nat := do
  Res.assrt (strides.length = dims.length)
  if strides.length = 0 then .ok 1
  else if asize dims = 0 then .ok 0
  else .ok ((strides.zip dims).foldl (fun t p => max t (p.1 * p.2)) 0)

/-- include/GstridesB.hpp:240-243, loop of `is_regular` over (stride,dim) pairs from last to first. -/
def regularLoop : List (Nat × Nat) → Nat → Bool
  | [], _ => true
  | (s, d) :: r, t => if s ≠ t then false else regularLoop r (t * d)

/-- include/GstridesB.hpp:236-245 `is_regular(dims)`. -/
def isRegular (strides dims : List Nat) : Res Bool := do
  Res.assrt (strides.length = dims.length)
  .ok (regularLoop (strides.zip dims).reverse 1)

/-- include/GstridesB.hpp:257-263: one round per non-zero stride; find the first entry equal to `t`
(`List.findIdx?`), zero it, multiply `t` by its dim. -/
def contigLoop : Nat → List Nat → List Nat → Nat → Bool
  | 0, _, _, _ => true
  | n + 1, v, dims, t =>
    match v.findIdx? (· == t) with
    | none => false
    | some j => contigLoop n (v.set j 0) dims (t * dims[j]?.getD 0)

/-- include/GstridesB.hpp:247-266 `is_contiguous(dims)`.  (`dims[j]` is in range because the lengths
agree, so the default of `getD` is never used.) -/
def isContiguous (strides dims : List Nat) : Res Bool := do
  Res.assrt (strides.length = dims.length)
  let reg ← isRegular strides dims
  if reg then .ok true
  else .ok (contigLoop (strides.countP (0 < ·)) strides dims 1)

/-- `INT_MAX`, the sentinel of `GstridesB::ordering`. -/
def intMax : Nat := 2147483647

/-- `std::min_element`: position of the first minimum. -/
def minElement (v : List Nat) : Nat := v.findIdx (fun a => v.all (a ≤ ·))

/-- `std::max_element`: position of the first maximum. -/
def maxElement (v : List Nat) : Nat := v.findIdx (fun a => v.all (· ≤ a))

/-- include/GstridesB.hpp:293-297: `n` rounds of `min_element`, each overwriting the minimum. -/
def orderingLoop : Nat → List Nat → List Nat
  | 0, _ => []
  | n + 1, v => minElement v :: orderingLoop n (v.set (minElement v) intMax)

/-- include/GstridesB.hpp:288-299 `ordering()`. -/
def ordering (strides : List Nat) : List Nat := orderingLoop strides.length strides

/-- include/GstridesB.hpp:306-310: `n` rounds of `max_element`, each zeroing the maximum. -/
def descOrderingLoop : Nat → List Nat → List Nat
  | 0, _ => []
  | n + 1, v => maxElement v :: descOrderingLoop n (v.set (maxElement v) 0)

/-- include/GstridesB.hpp:301-312 `descending_ordering()`. -/
def descOrdering (strides : List Nat) : List Nat := descOrderingLoop strides.length strides

/-- include/GstridesB.hpp:314-323 `offs(j, source)`: re-address linear offset `j` of the layout
`source` in the layout `strides`.  A zero source stride divides by zero. -/
def reoffsLoop : List Nat → List Nat → Nat → Nat → Res Nat
  | [], [], _, t => .ok t
  | s :: ss, q :: qs, j, t => if q = 0 then .ub else reoffsLoop ss qs (j - j / q * q) (t + s * (j / q))
  | _, _, _, _ => .ub

def reoffs (strides : List Nat) (j : Nat) (source : List Nat) : Res Nat :=
  reoffsLoop strides source j 0

/-- include/GstridesB.hpp:355-357: check that consecutive axes in stride order continue each other. -/
def fuserCheck : List (Nat × Nat) → Bool
  | (s, d) :: (s', d') :: r => if s' ≠ s * d then false else fuserCheck ((s', d') :: r)
  | _ => true

/-- include/GstridesB.hpp:350-359 `fuser(dims)`: `some (stride, size)`, or `none` for the returned
`-1`.  With no axes `p[0]` is out of range; with smallest stride 0 the final division is undefined. -/
def fuser (strides dims : List Nat) : Res (Option (Nat × Nat)) :=
  let axes := (ordering strides).map fun j => (strides[j]?.getD 0, dims[j]?.getD 0)
  match axes with
  | [] => .ub
  | (s0, d0) :: r =>
    if fuserCheck ((s0, d0) :: r) = false then .ok none
    else if s0 = 0 then .ub
    else
      let last := ((s0, d0) :: r).getLast (by simp)
      .ok (some (s0, last.1 * last.2 / s0))

/-! ## Gvec (include/gvectr.hpp) -/

section Gvec
variable {α : Type _}

/-- include/gvectr.hpp:139-145 `insert(j,x)`. -/
def gvInsert (l : List α) (j : Nat) (x : α) : Res (List α) :=
  if j ≤ l.length then .ok (l.take j ++ x :: l.drop j) else .ub

/-- include/gvectr.hpp:147-153 `insert(j,vector)`. -/
def gvInsertVec (l : List α) (j : Nat) (x : List α) : Res (List α) :=
  if j ≤ l.length then .ok (l.take j ++ (x ++ l.drop j)) else .ub

/-- include/gvectr.hpp:164-170 `remove(j)`. -/
def gvRemove (l : List α) (j : Nat) : Res (List α) := do
  Res.assrt (j < l.length)
  .ok (l.take j ++ l.drop (j + 1))

/-- include/gvectr.hpp:176-181 `replace(j,x)`. -/
def gvReplace (l : List α) (j : Nat) (x : α) : Res (List α) := do
  Res.assrt (j < l.length)
  .ok (l.set j x)

/-- include/gvectr.hpp:89-92 `set(i,x)`: unchecked. -/
def gvSet (l : List α) (j : Nat) (x : α) : Res (List α) :=
  if j < l.length then .ok (l.set j x) else .ub

/-- include/gvectr.hpp:183-188 `prepend`. -/
def gvPrepend (l : List α) (x : α) : List α := x :: l

/-- include/gvectr.hpp:190-195 `append`. -/
def gvAppend (l : List α) (x : α) : List α := l ++ [x]

/-- include/gvectr.hpp:197-202 `cat`. -/
def gvCat (l k : List α) : List α := l ++ k

/-- include/gvectr.hpp:204-210 `chunk(beg,n)`; `n=-1` means "to the end", negative `beg` counts from
the end.  A negative length makes the vector constructor throw. -/
def gvChunk (l : List α) (beg n : Int) : Res (List α) :=
  let b : Int := if beg < 0 then l.length + beg else beg
  let m : Int := if n = -1 then l.length - b else n
  if m < 0 then .throw
  else if b < 0 ∨ (l.length : Int) < b + m then .ub
  else .ok ((l.drop b.toNat).take m.toNat)

/-- include/gvectr.hpp:212-219 `permute(p)`. -/
def gvPermute (l : List α) (p : List Nat) : Res (List α) := do
  Res.assrt (p.length = l.length)
  p.foldr (fun j acc => do let x ← Res.get l j; let r ← acc; .ok (x :: r)) (.ok [])

/-- include/Cnine_base_helpers.hpp:120-129, loop of `except`: `x` is the unread rest, `last` the
number of entries consumed so far.  An index below `last` makes `len` negative (undefined). -/
def exceptLoop (N : Nat) : List Nat → List α → Nat → Res (List α)
  | [], x, _ => .ok x
  | i :: is, x, last =>
    if ¬ i < N then .throw
    else if i < last then .ub
    else do
      let r ← exceptLoop N is (x.drop (i - last + 1)) (i + 1)
      .ok (x.take (i - last) ++ r)

/-- include/Cnine_base_helpers.hpp:111-131 `except(x,ix)`, used by `Gvec::remove(vector)`
(include/gvectr.hpp:172-174).  More indices than entries make the vector constructor throw. -/
def gvExcept (x : List α) (ix : List Nat) : Res (List α) :=
  if x.length < ix.length then .throw else exceptLoop x.length ix x 0

end Gvec

/-- include/gvectr.hpp:291-298 `operator<=` on `Gvec`: lexicographic. -/
def gvLe : List Nat → List Nat → Bool
  | [], _ => true
  | _ :: _, [] => false
  | a :: as, b :: bs => if a = b then gvLe as bs else a ≤ b

/-- include/Gindex.hpp:177-182 `operator<=`: componentwise. -/
def gixLe (x y : List Nat) : Bool :=
  x.length = y.length && (x.zip y).all (fun p => p.1 ≤ p.2)

/-! ## GindexSet (include/GindexSet.hpp): a `std::set<int>`, here its strictly increasing list -/

/-- include/GindexSet.hpp:42-44 -/
def gsetContigLoop : List Int → Int → Bool
  | [], _ => true
  | p :: r, i => if p ≠ i then false else gsetContigLoop r (i + 1)

/-- include/GindexSet.hpp:40-45 `is_contiguous()`; `first()` of an empty set is undefined. -/
def gsetIsContiguous (s : List Int) : Res Bool :=
  match s with
  | [] => .ub
  | p :: _ => .ok (gsetContigLoop s (p - 1))

/-- include/GindexSet.hpp:47-51 `is_disjoint(y)`. -/
def gsetIsDisjoint (s y : List Int) : Bool := s.all (fun p => !y.contains p)

/-- include/GindexSet.hpp:53-57 `covers(n)`. -/
def gsetCovers1 (s : List Int) (n : Nat) : Bool :=
  (List.range n).all (fun i => s.contains (i : Int))

/-- include/GindexSet.hpp:59-63 `covers(n,x)`. -/
def gsetCovers2 (s : List Int) (n : Nat) (x : List Int) : Bool :=
  (List.range n).all (fun i => s.contains (i : Int) || x.contains (i : Int))

/-- include/GindexSet.hpp:65-69 `covers(n,x,y)`: the third test consults `x` again. -/
def gsetCovers3 (s : List Int) (n : Nat) (x _y : List Int) : Bool :=
  (List.range n).all (fun i => s.contains (i : Int) || x.contains (i : Int) || x.contains (i : Int))

end Cnine
