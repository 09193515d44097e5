import Verif.Model.Index

/-!
# Model of TensorView as (offset, dims, strides) and its view-producing functions

`arr` is a pointer into a buffer; here the offset of the view's first element.
`dev` and complex conjugation are not modelled.
-/

namespace Cnine

/-- tensors/TensorView.hpp:125-131: the fields of `TensorView` that determine its cells. -/
structure View where
  off : Nat
  dims : List Nat
  strides : List Nat
  deriving Repr, DecidableEq

namespace View

/-- tensors/TensorView_access.inc:19-22 `operator()(ix)`: the cell read (unchecked build). -/
def addr (v : View) (ix : List Nat) : Res Nat := do
  let o ← offs v.strides ix
  .ok (v.off + o)

/-- include/Gdims.hpp:213-220 / include/GstridesB.hpp:152-159 `transp()`: swap the last two entries. -/
def swapLast2 (l : List Nat) : List Nat :=
  match l.reverse with
  | a :: b :: r => (b :: a :: r).reverse
  | _ => l

/-- tensors/TensorView_reshapes.inc:18-22 `transp()`. -/
def transp (v : View) : Res View := do
  Res.assrt (2 ≤ v.dims.length)
  .ok ⟨v.off, swapLast2 v.dims, swapLast2 v.strides⟩

/-- tensors/TensorView_reshapes.inc:31-35 `transp(a,b)`. -/
def transpAB (v : View) (a b : Nat) : Res View := do
  Res.assrt (a < v.dims.length)
  Res.assrt (b < v.dims.length)
  let da ← Res.get v.dims a
  let db ← Res.get v.dims b
  let sa ← Res.get v.strides a
  let sb ← Res.get v.strides b
  .ok ⟨v.off, (v.dims.set a db).set b da, (v.strides.set a sb).set b sa⟩

/-- tensors/TensorView_reshapes.inc:37-39 `permute_indices(p)`. -/
def permuteIndices (v : View) (p : List Nat) : Res View := do
  let d ← gvPermute v.dims p
  let s ← gvPermute v.strides p
  .ok ⟨v.off, d, s⟩

/-- tensors/TensorView_reshapes.inc:46-49 `with_decreasing_strides()` (also 41-44
`falling_strides()`). -/
def withDecreasingStrides (v : View) : Res View := permuteIndices v (descOrdering v.strides)

/-- tensors/TensorView_reshapes.inc:55-60 `reshape(dims)`. -/
def reshape (v : View) (dims : List Nat) : Res View := do
  Res.assrt (asize dims = asize v.dims)
  let reg ← isRegular v.strides v.dims
  Res.assrt reg
  .ok ⟨v.off, dims, rmStrides dims⟩

/-- tensors/TensorView_reshapes.inc:70-73 `squeeze(d)`: `dims[d]` unchecked. -/
def squeeze (v : View) (d : Nat) : Res View := do
  let n ← Res.get v.dims d
  Res.assrt (n = 1)
  let ds ← gvRemove v.dims d
  let ss ← gvRemove v.strides d
  .ok ⟨v.off, ds, ss⟩

/-- tensors/TensorView_reshapes.inc:75-78 `unsqueeze(d)`.  `ifthen` is a function, so both arguments
are evaluated: for `d==0` the expression `strides[d-1]` is out of range (undefined behaviour). -/
def unsqueeze (v : View) (d : Nat) : Res View := do
  let m ← memsize v.strides v.dims
  let s ← if d = 0 then Res.ub else Res.get v.strides (d - 1)
  let s' := if d = 0 then m else s
  let ds ← gvInsert v.dims d 1
  let ss ← gvInsert v.strides d s'
  .ok ⟨v.off, ds, ss⟩

/-- tensors/TensorView_reshapes.inc:80-82 `insert_dim(d,n)`: a broadcast axis. -/
def insertDim (v : View) (d n : Nat) : Res View := do
  let ds ← gvInsert v.dims d n
  let ss ← gvInsert v.strides d 0
  .ok ⟨v.off, ds, ss⟩

/-- tensors/TensorView_reshapes.inc:273-280 `cinflate(d,n)`. -/
def cinflate (v : View) (d n : Nat) : Res View := do
  let m ← Res.get v.dims d
  Res.assrt (m = 1 ∨ m = n)
  if m = n then .ok v
  else do
    let ds ← gvSet v.dims d n
    let ss ← gvSet v.strides d 0
    .ok ⟨v.off, ds, ss⟩

/-- include/Gdims.hpp:319-327: extent of one group of fused axes (all must agree). -/
def mapDimsGroup (dims : List Nat) (g : List Nat) : Res Nat :=
  match g with
  | [] => .throw
  | i0 :: is => do
    Res.assrt (i0 < dims.length)
    let n ← Res.get dims i0
    let rec loop : List Nat → Res Unit
      | [] => .ok ()
      | j :: js => do
        Res.assrt (j < dims.length)
        let m ← Res.get dims j
        Res.assrt (m = n)
        loop js
    loop is
    .ok n

/-- include/GstridesB.hpp:273-279: stride of one group: sum of the strides. -/
def mapStridesGroup (strides : List Nat) : List Nat → Nat → Res Nat
  | [], t => .ok t
  | j :: js, t => do
    Res.assrt (j < strides.length)
    let s ← Res.get strides j
    mapStridesGroup strides js (t + s)

/-- include/Gdims.hpp:314-329 `Gdims::map(map)`. -/
def mapDims (dims : List Nat) (map : List (List Nat)) : Res (List Nat) := do
  Res.assrt ((map.map List.length).sum = dims.length)
  map.foldr (fun g acc => do let x ← mapDimsGroup dims g; let r ← acc; .ok (x :: r)) (.ok [])

/-- include/GstridesB.hpp:268-282 `GstridesB::map(map)`. -/
def mapStrides (strides : List Nat) (map : List (List Nat)) : Res (List Nat) := do
  Res.assrt ((map.map List.length).sum = strides.length)
  map.foldr (fun g acc => do let x ← mapStridesGroup strides g 0; let r ← acc; .ok (x :: r)) (.ok [])

/-- tensors/TensorView_reshapes.inc:84-86 `diags(map)`. -/
def diags (v : View) (map : List (List Nat)) : Res View := do
  let d ← mapDims v.dims map
  let s ← mapStrides v.strides map
  .ok ⟨v.off, d, s⟩

/-! ### scrunching -/

/-- tensors/TensorView_reshapes.inc:94-103: merge consecutive axes (stride, dim) in ascending stride
order; `(s,d)` is the axis being accumulated. -/
def scrunchLoop : Nat × Nat → List (Nat × Nat) → List (Nat × Nat)
  | (s, d), [] => [(s, d)]
  | (s, d), (s', d') :: r =>
    if s' = s * d then scrunchLoop (s, d * d') r
    else (s, d) :: scrunchLoop (s', d') r

/-- tensors/TensorView_reshapes.inc:94-103: the merge loop on all axes (none if rank 0). -/
def scrunchAxes : List (Nat × Nat) → List (Nat × Nat)
  | [] => []
  | a :: r => scrunchLoop a r

/-- tensors/TensorView_reshapes.inc:88-109 `scrunch()`. -/
def scrunch (v : View) : View :=
  let axes := (ordering v.strides).map fun j => (v.strides[j]?.getD 0, v.dims[j]?.getD 0)
  let merged := scrunchAxes axes
  ⟨v.off, merged.reverse.map Prod.snd, merged.reverse.map Prod.fst⟩

/-- tensors/TensorView_reshapes.inc:121-132: as `scrunchLoop` with two stride vectors. -/
def coScrunchLoop : Nat × Nat × Nat → List (Nat × Nat × Nat) → List (Nat × Nat × Nat)
  | (xs, ys, d), [] => [(xs, ys, d)]
  | (xs, ys, d), (xs', ys', d') :: r =>
    if xs' = xs * d ∧ ys' = ys * d then coScrunchLoop (xs, ys, d * d') r
    else (xs, ys, d) :: coScrunchLoop (xs', ys', d') r

/-- tensors/TensorView_reshapes.inc:121-132: the merge loop on all axes (none if rank 0). -/
def coScrunchAxes : List (Nat × Nat × Nat) → List (Nat × Nat × Nat)
  | [] => []
  | a :: r => coScrunchLoop a r

/-- tensors/TensorView_reshapes.inc:112-139 `co_scrunch(y)`. -/
def coScrunch (v y : View) : Res (View × View) := do
  Res.assrt (v.dims = y.dims)
  let axes := (ordering v.strides).map fun j =>
    (v.strides[j]?.getD 0, y.strides[j]?.getD 0, v.dims[j]?.getD 0)
  let merged := coScrunchAxes axes
  let m := merged.reverse
  .ok (⟨v.off, m.map (·.2.2), m.map (·.1)⟩, ⟨y.off, m.map (·.2.2), m.map (·.2.1)⟩)

/-! ### fusing and splitting -/

/-- tensors/TensorView_reshapes.inc:196-202 `fuse01()`: no check on the strides. -/
def fuse01 (v : View) : Res View := do
  Res.assrt (2 ≤ v.dims.length)
  let d0 ← Res.get v.dims 0
  let d1 ← Res.get v.dims 1
  let ds ← gvRemove v.dims 1
  let ds' ← gvSet ds 0 (d0 * d1)
  let ss ← gvRemove v.strides 0
  .ok ⟨v.off, ds', ss⟩

/-- tensors/TensorView_reshapes.inc:205-215 `fuse(a,b)`. -/
def fuse (v : View) (a b : Nat) : Res View := do
  Res.assrt (a < v.dims.length)
  Res.assrt (b < v.dims.length)
  let da ← Res.get v.dims a
  let db ← Res.get v.dims b
  let sa ← Res.get v.strides a
  let sb ← Res.get v.strides b
  if sa < sb then do
    Res.assrt (da * sa = sb)
    let ds ← gvRemove (v.dims.set a (da * db)) b
    let ss ← gvRemove v.strides b
    .ok ⟨v.off, ds, ss⟩
  else do
    Res.assrt (db * sb = sa)
    let ds ← gvRemove (v.dims.set b (da * db)) a
    let ss ← gvRemove v.strides a
    .ok ⟨v.off, ds, ss⟩

/-- tensors/TensorView_reshapes.inc:232-238 `fuse_chunk(i,n)`. -/
def fuseChunk (v : View) (i n : Nat) : Res View := do
  let sc ← gvChunk v.strides i n
  let dc ← gvChunk v.dims i n
  let f ← fuser sc dc
  match f with
  | none => .throw
  | some (s, d) => do
    let d1 ← gvChunk v.dims 0 i
    let d2 ← gvChunk v.dims (i + n) (-1)
    let s1 ← gvChunk v.strides 0 i
    let s2 ← gvChunk v.strides (i + n) (-1)
    .ok ⟨v.off, d1 ++ d :: d2, s1 ++ s :: s2⟩

/-- tensors/TensorView_reshapes.inc:246-253 `split0(a,b)`. -/
def split0 (v : View) (a b : Nat) : Res View := do
  Res.assrt (1 ≤ v.dims.length)
  let d0 ← Res.get v.dims 0
  Res.assrt (d0 = a * b)
  let ds ← gvInsert v.dims 0 a
  let ds' ← gvSet ds 1 b
  let s0 ← Res.get v.strides 0
  let ss ← gvInsert v.strides 0 (s0 * b)
  .ok ⟨v.off, ds', ss⟩

/-- tensors/TensorView_reshapes.inc:255-262 `split1(a,b)`. -/
def split1 (v : View) (a b : Nat) : Res View := do
  Res.assrt (2 ≤ v.dims.length)
  let d1 ← Res.get v.dims 1
  Res.assrt (d1 = a * b)
  let ds ← gvInsert v.dims 1 a
  let ds' ← gvSet ds 2 b
  let s1 ← Res.get v.strides 1
  let ss ← gvInsert v.strides 1 (s1 * b)
  .ok ⟨v.off, ds', ss⟩

/-- tensors/TensorView_reshapes.inc:264-271 `split(d,a)`.  `a==0` divides by zero. -/
def split (v : View) (d a : Nat) : Res View := do
  Res.assrt (d < v.dims.length)
  let n ← Res.get v.dims d
  Res.need (a ≠ 0)
  Res.assrt (n % a = 0)
  let D ← gvInsert v.dims (d + 1) a
  let D' ← gvSet D d (n / a)
  let s ← Res.get v.strides d
  let S ← gvInsert v.strides d (s * a)
  .ok ⟨v.off, D', S⟩

/-! ### sub-tensors -/

/-- Pointer arithmetic `arr+k`: a pointer before the start of memory is undefined behaviour. -/
def shift (o : Nat) (k : Int) : Res Nat :=
  if 0 ≤ (o : Int) + k then .ok ((o : Int) + k).toNat else .ub

/-- tensors/TensorView_subtensors.inc:18-22 `row(i)`.  `i` is a signed `int` and only checked from
above. -/
def row (v : View) (i : Int) : Res View :=
  match v.dims, v.strides with
  | [d0, d1], [s0, s1] => do
    Res.assrt (i < d0)
    let o ← shift v.off (s0 * i)
    .ok ⟨o, [d1], [s1]⟩
  | [_, _], _ => .ub
  | _, _ => .throw

/-- tensors/TensorView_subtensors.inc:24-28 `rows(i,n)`. -/
def rows (v : View) (i : Int) (n : Nat) : Res View :=
  match v.dims, v.strides with
  | [d0, d1], [s0, s1] => do
    Res.assrt (i + n ≤ d0)
    let o ← shift v.off (s0 * i)
    .ok ⟨o, [n, d1], [s0, s1]⟩
  | [_, _], _ => .ub
  | _, _ => .throw

/-- tensors/TensorView_subtensors.inc:30-34 `col(i)`. -/
def col (v : View) (i : Int) : Res View :=
  match v.dims, v.strides with
  | [d0, d1], [s0, s1] => do
    Res.assrt (i < d1)
    let o ← shift v.off (s1 * i)
    .ok ⟨o, [d0], [s0]⟩
  | [_, _], _ => .ub
  | _, _ => .throw

/-- tensors/TensorView_subtensors.inc:36-40 `cols(i,n)`. -/
def cols (v : View) (i : Int) (n : Nat) : Res View :=
  match v.dims, v.strides with
  | [d0, d1], [s0, s1] => do
    Res.assrt (i + n ≤ d1)
    let o ← shift v.off (s1 * i)
    .ok ⟨o, [d0, n], [s0, s1]⟩
  | [_, _], _ => .ub
  | _, _ => .throw

/-- tensors/TensorView_subtensors.inc:59-62 `block(dims)`: the check uses the lexicographic
`operator<=` of `Gvec` (include/gvectr.hpp:291-298). -/
def blockDims (v : View) (dims : List Nat) : Res View := do
  Res.assrt (gvLe dims v.dims)
  .ok ⟨v.off, dims, v.strides⟩

/-- tensors/TensorView_subtensors.inc:64-67 `block(dims,offs)`: `Gindex::operator+`
(include/Gindex.hpp:162-168) asserts equal lengths, `Gindex::operator<=` is componentwise. -/
def block (v : View) (dims o : List Nat) : Res View := do
  Res.assrt (dims.length = o.length)
  Res.assrt (gixLe (List.zipWith (· + ·) o dims) v.dims)
  let t ← offs v.strides o
  .ok ⟨v.off + t, dims, v.strides⟩

/-- tensors/TensorView_subtensors.inc:88-92 `diag()`. -/
def diag (v : View) : Res View :=
  match v.dims, v.strides with
  | [d0, d1], [s0, s1] => do
    Res.assrt (d0 = d1)
    .ok ⟨v.off, [d0], [s0 + s1]⟩
  | [_, _], _ => .ub
  | _, _ => .throw

/-- tensors/TensorView_subtensors.inc:112-115 `slice(d,i)`; `i` is unchecked.  `strides[d]` is read
first. -/
def slice (v : View) (d i : Nat) : Res View := do
  let s ← Res.get v.strides d
  let ds ← gvRemove v.dims d
  let ss ← gvRemove v.strides d
  .ok ⟨v.off + s * i, ds, ss⟩

/-- tensors/TensorView_subtensors.inc:117-120 `slice(ix)`: fix the leading axes. -/
def sliceIx (v : View) (ix : List Nat) : Res View := do
  let sk ← gvChunk v.strides 0 ix.length
  let t ← offs sk ix
  let ds ← gvChunk v.dims ix.length (-1)
  let ss ← gvChunk v.strides ix.length (-1)
  .ok ⟨v.off + t, ds, ss⟩

/-- tensors/TensorView_subtensors.inc:122-126 `slices(d,i,n)`: unchecked. -/
def slices (v : View) (d i n : Nat) : Res View := do
  let s ← Res.get v.strides d
  let ds ← gvSet v.dims d n
  .ok ⟨v.off + s * i, ds, v.strides⟩

end View
end Cnine
