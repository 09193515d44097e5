import Verif.Model.OMap
import Verif.Model.RView
import Verif.Model.Rows

/-!
# Model of the block sparse matrices

containers/double_indexed_map.hpp and matrices/BlockCsparseMatrix.hpp.  Host memory only (`dev==0`; the other branch is
a CUDA kernel).  `int` is unbounded; the numbers and sizes of blocks are natural numbers, the block indices, which the
code takes from the mask without looking at them, are integers.  The elements come from an arbitrary algebraic structure
instead of `float`.

Not modelled: `double_indexed_map(const map_of_maps&)`, `is_empty`, `make_cmap` and `for_each_in_columns`
(containers/double_indexed_map.hpp:37-45, 51-56, 108-112, 118-123), templates that do not compile when they are
instantiated; the cached `GatherMapB` objects (matrices/BlockCsparseMatrix.hpp:52-56), whose constructor is modelled in
Model/Gather.lean; `row_offsets_on_device` (66-67).
-/

namespace Cnine

variable {α υ : Type _}

/-- containers/double_indexed_map.hpp:28-29: `rmap` and `cmap`. -/
structure DIMap (υ : Type _) where
  rmap : OMap Int (OMap Int υ)
  cmap : OMap Int (OMap Int υ)
deriving Repr, DecidableEq

namespace DIMap

/-- containers/double_indexed_map.hpp:35. -/
def empty : DIMap υ := ⟨[], []⟩

/-- `mm[a][b]=v` for a `std::map` of `std::map`s (containers/double_indexed_map.hpp:89,90): `mm[a]` is made empty if it
is not there. -/
def setIn (a b : Int) (v : υ) (mm : OMap Int (OMap Int υ)) : OMap Int (OMap Int υ) :=
  OMap.set a (OMap.set b v ((OMap.find? a mm).getD [])) mm

/-- containers/double_indexed_map.hpp:88-91: `set(i,j,x)`. -/
def set (d : DIMap υ) (i j : Int) (v : υ) : DIMap υ := ⟨setIn i j v d.rmap, setIn j i v d.cmap⟩

/-- containers/double_indexed_map.hpp:58-63 `size()` (65-70 `nfilled()` is the same). -/
def size (d : DIMap υ) : Nat := (d.rmap.map fun p => p.2.length).sum

/-- containers/double_indexed_map.hpp:72-78: `is_filled(i,j)` (also matrices/BlockCsparseMatrix.hpp:132-136). -/
def isFilled (d : DIMap υ) (i j : Int) : Bool :=
  match OMap.find? i d.rmap with
  | none => false
  | some r => (OMap.find? j r).isSome

/-- containers/double_indexed_map.hpp:80-86: `operator()(i,j)`; `TYPE()` is the zero. -/
def get [Zero υ] (d : DIMap υ) (i j : Int) : υ :=
  match OMap.find? i d.rmap with
  | none => 0
  | some r => (OMap.find? j r).getD 0

/-- containers/double_indexed_map.hpp:97-101: `for_each`, as the list of arguments of the lambda. -/
def forEach (d : DIMap υ) : List (Int × Int × υ) :=
  d.rmap.flatMap fun p => p.2.map fun q => (p.1, q.1, q.2)

/-- containers/double_indexed_map.hpp:103-106: `for_each_in_row(i,..)`: `rmap[i]` makes an empty row if there is none.  The map
afterwards and the arguments of the lambda. -/
def forEachInRow (d : DIMap υ) (i : Int) : DIMap υ × List (Int × υ) :=
  match OMap.find? i d.rmap with
  | some r => (d, r)
  | none => ({ d with rmap := OMap.set i [] d.rmap }, [])

end DIMap

/-- tensors/TensorView_subtensors.inc:24-28 `rows(i,n)` of a matrix.  `i` may be negative: the pointer is then before that of
the matrix (`.ub` if before the start of the memory). -/
def RV2.rowsAt (v : RV2) (i : Int) (n : Nat) : Res RV2 := do
  Res.assrt (i + n ≤ v.n0)
  if (v.arr : Int) + v.s0 * i < 0 then .ub
  else .ok ⟨((v.arr : Int) + v.s0 * i).toNat, n, v.n1, v.s0, v.s1⟩

/-- matrices/BlockCsparseMatrix.hpp:43-50: `blockn`, `blockm`, `nblocks`, `mblocks`, `mx` and `offsets`.  `mx` is a tensor with
three axes and row-major strides, given by its first cell; the first of its sizes is not needed by the operations. -/
structure BSM where
  nblocks : Nat
  mblocks : Nat
  blockn : Nat
  blockm : Nat
  mx : Nat
  offsets : DIMap Nat
deriving Repr, DecidableEq

namespace BSM

/-- matrices/BlockCsparseMatrix.hpp:82-83 (= 90-91): the offsets given to the pairs of the mask, in the order in which
`for_each` of the mask lists them (containers/hlists.hpp:155-164, containers/map_of_lists.hpp:88-92). -/
def offsetsOf (mask : List (Int × Int)) : DIMap Nat × Nat :=
  mask.foldl (fun s p => (s.1.set p.1 p.2 s.2, s.2 + 1)) (DIMap.empty, 0)

/-- matrices/BlockCsparseMatrix.hpp:78-84 (= 86-92) with `fcode` 0; the mask is the list of its pairs, whose number is
`mask.total()`.  `q` is where `mx` is allocated. -/
def new [Zero α] (nblocks mblocks blockn blockm : Nat) (mask : List (Int × Int)) (q : Nat) (m : Buf α) : BSM × Buf α :=
  (⟨nblocks, mblocks, blockn, blockm, q, (offsetsOf mask).1⟩, allocZero m q (mask.length * (blockn * blockm)))

/-- tensors/TensorView_subtensors.inc:112-115: `mx.slice(0,t)` of a tensor with sizes `(_,bn,bm)` and row-major strides;
unchecked. -/
def sliceOf (q bn bm t : Nat) : RV2 := ⟨q + bn * bm * t, bn, bm, bm, 1⟩

/-- matrices/BlockCsparseMatrix.hpp:138-142: `offset(i,j)`. -/
def offsetIn (d : DIMap Nat) (i j : Int) : Res Nat :=
  match OMap.find? i d.rmap with
  | none => .throw
  | some r =>
    match OMap.find? j r with
    | none => .throw
    | some t => .ok t

/-- Reading a variable: an indeterminate value (matrices/BlockCsparseMatrix.hpp:73,145,146) or the first element of an empty
map (62) is undefined behaviour. -/
def value {β : Type _} : Option β → Res β
  | some b => .ok b
  | none => .ub

/-- matrices/BlockCsparseMatrix.hpp:144-148: `block(i,j)` of a matrix with the given members; `none` is an indeterminate value. -/
def blockIn (nb mb : Option Int) (d : DIMap Nat) (q bn bm : Nat) (i j : Int) : Res RV2 := do
  let n ← value nb
  Res.assrt (i < n)
  let k ← value mb
  Res.assrt (j < k)
  let t ← offsetIn d i j
  .ok (sliceOf q bn bm t)

/-- matrices/BlockCsparseMatrix.hpp:144-148. -/
def block (x : BSM) (i j : Int) : Res RV2 :=
  blockIn (some (x.nblocks : Int)) (some (x.mblocks : Int)) x.offsets x.mx x.blockn x.blockm i j

/-- matrices/BlockCsparseMatrix.hpp:150-153: `for_each_block`, as the list of arguments of the lambda. -/
def forEachBlock (x : BSM) : List (Int × Int × RV2) :=
  x.offsets.forEach.map fun e => (e.1, e.2.1, sliceOf x.mx x.blockn x.blockm e.2.2)

/-- matrices/BlockCsparseMatrix.hpp:58-64: `row_offsets`: the first offset of each row; `begin()` of an empty map is not
dereferenceable. -/
def rowOffsets (x : BSM) : Res (List Nat) :=
  Res.forM x.offsets.rmap [] fun l p => do
    let e ← value p.2.head?
    .ok (l ++ [e.2])

/-- matrices/BlockCsparseMatrix.hpp:180 with tensors/TensorView.hpp:561-573. -/
def applyBlock [Zero α] [Add α] [Mul α] (x : BSM) (r y : RV2) (m : Buf α) (e : Int × Int × RV2) : Res (Buf α) := do
  let r' ← r.rowsAt (e.1 * x.blockn) x.blockn
  let y' ← y.rowsAt (e.2.1 * x.blockm) x.blockm
  r'.addMatmulAA e.2.2 y' m

/-- matrices/BlockCsparseMatrix.hpp:168-185: `apply_to(r,x)` for matrices `r` and `x` (here `y`). -/
def applyTo [Zero α] [Add α] [Mul α] (x : BSM) (r y : RV2) (m : Buf α) : Res (Buf α) := do
  Res.assrt (y.n0 = x.mblocks * x.blockm)
  Res.assrt (r.n0 = x.nblocks * x.blockn)
  Res.assrt (y.n1 = r.n1)
  Res.forM x.forEachBlock m (x.applyBlock r y)

/-- matrices/BlockCsparseMatrix.hpp:200. -/
def applyTranspBlock [Zero α] [Add α] [Mul α] (x : BSM) (r y : RV2) (m : Buf α) (e : Int × Int × RV2) : Res (Buf α) := do
  let r' ← r.rowsAt (e.2.1 * x.blockm) x.blockm
  let y' ← y.rowsAt (e.1 * x.blockn) x.blockn
  r'.addMatmulAA e.2.2.transp y' m

/-- matrices/BlockCsparseMatrix.hpp:188-205: `apply_transp_to(r,x)`. -/
def applyTranspTo [Zero α] [Add α] [Mul α] (x : BSM) (r y : RV2) (m : Buf α) : Res (Buf α) := do
  Res.assrt (y.n0 = x.nblocks * x.blockn)
  Res.assrt (r.n0 = x.mblocks * x.blockm)
  Res.assrt (y.n1 = r.n1)
  Res.forM x.forEachBlock m (x.applyTranspBlock r y)

/-- matrices/BlockCsparseMatrix.hpp:159-166: `operator*` with a tensor.  `q` is where the result is allocated. -/
def mulTensor [Zero α] [Add α] [Mul α] (x : BSM) (y : RV2) (q : Nat) (m : Buf α) : Res (RV2 × Buf α) := do
  Res.assrt (y.n0 = x.mblocks * x.blockm)
  let r := freshRows q (x.nblocks * x.blockn) y.n1
  let m ← x.applyTo r y (allocZero m q (x.nblocks * x.blockn * y.n1))
  .ok (r, m)

/-- matrices/BlockCsparseMatrix.hpp:214-219: `found`. -/
def found (p1 p2 : Int × OMap Int Nat) : Bool := p1.2.any fun q1 => (OMap.find? q1.1 p2.2).isSome

/-- matrices/BlockCsparseMatrix.hpp:211-221: the offsets of the product and their number. -/
def mulOffsets (x y : BSM) : DIMap Nat × Nat :=
  x.offsets.rmap.foldl (fun s p1 => y.offsets.cmap.foldl (fun s p2 =>
    if found p1 p2 then (s.1.set p1.1 p2.1 s.2, s.2 + 1) else s) s) (DIMap.empty, 0)

/-- matrices/BlockCsparseMatrix.hpp:227-228; `nb` and `mb` are what `R.nblocks` and `R.mblocks` hold. -/
def mulStep [Zero α] [Add α] [Mul α] (nb mb : Option Int) (x y : BSM) (d : DIMap Nat) (q : Nat) (p1 p2 : Int × OMap Int Nat)
    (m : Buf α) (q1 : Int × Nat) : Res (Buf α) :=
  if (OMap.find? q1.1 p2.2).isSome then do
    let r ← blockIn nb mb d q x.blockn y.blockm p1.1 p2.1
    let a ← x.block p1.1 q1.1
    let b ← y.block q1.1 p2.1
    r.addMatmulAA a b m
  else .ok m

/-- matrices/BlockCsparseMatrix.hpp:208-230 if `R.nblocks` and `R.mblocks` hold `nb` and `mb`.  `q` is where `R.mx` is allocated.
The offsets of the result and the memory. -/
def mulWith [Zero α] [Add α] [Mul α] (nb mb : Option Int) (x y : BSM) (q : Nat) (m : Buf α) : Res (DIMap Nat × Buf α) := do
  let d := mulOffsets x y
  let m ← Res.forM x.offsets.rmap (allocZero m q (d.2 * (x.blockn * y.blockm))) fun m p1 =>
    Res.forM y.offsets.cmap m fun m p2 => Res.forM p1.2 m (mulStep nb mb x y d.1 q p1 p2)
  .ok (d.1, m)

/-- matrices/BlockCsparseMatrix.hpp:208-230: `operator*` of two block matrices.  `BlockCsparseMatrix R;` (210, constructor 73)
leaves `R.nblocks` and `R.mblocks` without a value. -/
def mul [Zero α] [Add α] [Mul α] (x y : BSM) (q : Nat) (m : Buf α) : Res (DIMap Nat × Buf α) := mulWith none none x y q m

end BSM

end Cnine
