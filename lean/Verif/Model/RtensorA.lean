import Verif.Model.HighViews
import Verif.Model.Construct

/-!
# Model of legacy/backendA/RtensorA.hpp

On the CPU (`dev=0`: the checks of the device pass, `move_to_device(0)` and `to_device(0)` change nothing).  Sizes and positions are natural numbers and
`int` is unbounded.  Memory is one `Buf`; `new float[n]` makes `n` cells at the address `q` given by the caller of the model, with any contents `junk`.
The number type is any algebraic structure.  `assert` throws.
-/

namespace Cnine

variable {α : Type}

/-- legacy/backendA/RtensorA.hpp:58-79, without `k` (always `dims.size()`), `dev` and `arrg`. -/
structure RA where
  arr : Nat
  dims : List Nat
  strides : List Nat
  asize : Nat
  memsize : Nat
  cst : Nat
  nbu : Int
  isView : Bool
deriving DecidableEq

namespace RA

/-! ### Constructors -/

/-- legacy/backendA/RtensorA.hpp:113-125, without an array: `strides`, `asize`, `cst`, `memsize` from `dims`.  With no axes `strides[k-1]` is outside the vector. -/
def noalloc (arr : Nat) (dims : List Nat) : Res RA :=
  match dims with
  | [] => .ub
  | d :: ds =>
    let strides := rmStridesFrom 1 (d :: ds)
    let asize := strides.headD 0 * d
    .ok ⟨arr, d :: ds, strides, asize, GT.roundup asize 32, GT.roundup asize 32, -1, false⟩

/-- `new float[std::max(memsize,1)]`, legacy/backendA/RtensorA.hpp:142. -/
def newArr (junk : Nat → α) (q memsize : Nat) (m : Buf α) : Buf α := allocRaw junk m q (max memsize 1)

/-- legacy/backendA/RtensorA.hpp:128-149, 299-300, 398-400. -/
def raw (junk : Nat → α) (q : Nat) (dims : List Nat) (m : Buf α) : Res (RA × Buf α) := do
  let R ← noalloc q dims
  .ok (R, newArr junk q R.memsize m)

/-- legacy/backendA/RtensorA.hpp:152-174, with room for `n` slices. -/
def reserved (junk : Nat → α) (q n : Nat) (dims : List Nat) (m : Buf α) : Res (RA × Buf α) := do
  let R ← noalloc q dims
  let c := GT.roundup (R.strides.headD 0 * n) 32
  .ok ({ R with cst := c, memsize := c }, newArr junk q c m)

/-- legacy/backendA/RtensorA.hpp:177-208: an array, with axes `adims`, of tensors padded to a multiple of 32.  When either list is empty a stride outside
the vector is read or written. -/
def array (junk : Nat → α) (q : Nat) (adims dims : List Nat) (m : Buf α) : Res (RA × Buf α) :=
  match adims, dims with
  | a :: as, d :: ds =>
    let low := rmStridesFrom 1 (d :: ds)
    let high := rmStridesFrom (GT.roundup (low.headD 0 * d) 32) (a :: as)
    let asize := high.headD 0 * a
    let c := GT.roundup asize 32
    .ok (⟨q, (a :: as) ++ (d :: ds), high ++ low, asize, c, c, -1, false⟩, newArr junk q c m)
  | _, _ => .ub

/-- `std::fill(arr,arr+n,v)` and the loops `for(i<n) arr[i]=f(i)`, as in legacy/backendA/RtensorA.hpp:304, 310, 326, 339. -/
def fillArr (f : Nat → α) (x : RA) (n : Nat) (m : Buf α) : Res (Buf α) := loop n m fun i m => m.write (x.arr + i) (f i)

/-- legacy/backendA/RtensorA.hpp:302-306 zeros, 308-312 ones, 323-335 random numbers `f`, 337-341 `f i = i`. -/
def filled (f : Nat → α) (junk : Nat → α) (q : Nat) (dims : List Nat) (m : Buf α) : Res (RA × Buf α) := do
  let (R, m) ← raw junk q dims m
  let m ← fillArr f R R.asize m
  .ok (R, m)

/-- legacy/backendA/RtensorA.hpp:302-306, 402-408. -/
def zero [Zero α] (junk : Nat → α) (q : Nat) (dims : List Nat) (m : Buf α) : Res (RA × Buf α) := filled (fun _ => 0) junk q dims m

/-- legacy/backendA/RtensorA.hpp:308-312. -/
def ones [One α] (junk : Nat → α) (q : Nat) (dims : List Nat) (m : Buf α) : Res (RA × Buf α) := filled (fun _ => 1) junk q dims m

/-- legacy/backendA/RtensorA.hpp:337-341, 414-416. -/
def sequential [NatCast α] (junk : Nat → α) (q : Nat) (dims : List Nat) (m : Buf α) : Res (RA × Buf α) := filled (fun i => (i : α)) junk q dims m

/-- legacy/backendA/RtensorA.hpp:314-321: the last two sizes must agree; ones only in the first `dims[k-1]` places of the diagonal of the first matrix.
With one axis `dims[k-2]` is outside the vector. -/
def identity [Zero α] [One α] (junk : Nat → α) (q : Nat) (dims : List Nat) (m : Buf α) : Res (RA × Buf α) := do
  let (R, m) ← raw junk q dims m
  Res.need (2 ≤ dims.length)
  let a ← Res.get dims (dims.length - 1)
  let b ← Res.get dims (dims.length - 2)
  Res.assrt (a = b)
  let m ← fillArr (fun _ => 0) R R.memsize m
  let s ← Res.get R.strides (dims.length - 2)
  let m ← loop a m fun i m => m.write (R.arr + i * (s + 1)) 1
  .ok (R, m)

/-- legacy/backendA/RtensorA.hpp:295-297: `nbu` is not stored. -/
def batchRaw (junk : Nat → α) (q nbu : Nat) (dims : List Nat) (m : Buf α) : Res (RA × Buf α) := raw junk q (gvPrepend dims nbu) m

/-- legacy/backendA/RtensorA.hpp:343-347: `nbu` is stored. -/
def batchFilled (f : Nat → α) (junk : Nat → α) (q nbu : Nat) (dims : List Nat) (m : Buf α) : Res (RA × Buf α) := do
  let (R, m) ← filled f junk q (gvPrepend dims nbu) m
  .ok ({ R with nbu := nbu }, m)

/-- legacy/backendA/RtensorA.hpp:354-362, from a pointer. -/
def ofPtr (junk : Nat → α) (q : Nat) (dims : List Nat) (p : Nat) (m : Buf α) : Res (RA × Buf α) := do
  let (R, m) ← raw junk q dims m
  let m ← stdCopy m p R.asize R.arr
  .ok (R, m)

/-- legacy/backendA/RtensorA.hpp:499-506, a view of `x`. -/
def viewOf (x : RA) : RA := { x with nbu := -1, isView := true }

/-- legacy/backendA/RtensorA.hpp:237-249, 451-462 (and 464-474, 476-497, 531-533, 808-810 `conj`): a copy. -/
def copy (junk : Nat → α) (q : Nat) (x : RA) (m : Buf α) : Res (RA × Buf α) := do
  let R : RA := { x with arr := q, nbu := -1, isView := false }
  let m ← stdCopy (newArr junk q x.memsize m) x.arr x.asize R.arr
  .ok (R, m)

/-- legacy/backendA/RtensorA.hpp:583-589 `view()`: the strides are made from the sizes. -/
def view (x : RA) : Res RA := do
  let R ← noalloc x.arr x.dims
  .ok { R with isView := true }

/-- legacy/backendA/RtensorA.hpp:592-598 `view_as_shape(dims)` (the check of the sizes is compiled out) and 600-610 `view_of_blob(dims,arr)`. -/
def viewAsShape (arr : Nat) (dims : List Nat) : Res RA := do
  let R ← noalloc arr dims
  .ok { R with isView := true }

/-- legacy/backendA/RtensorA.hpp:274-285 `reshape(dims)`. -/
def reshape (x : RA) (dims : List Nat) : Res RA := do
  Res.assrt (Cnine.asize dims = x.asize)
  let R ← noalloc x.arr dims
  .ok { R with nbu := x.nbu, isView := x.isView }

/-! ### Access -/

/-- legacy/backendA/RtensorA.hpp:916: `Σ ix[i]*strides[i]` for `i` below `k`. -/
def offset (x : RA) (ix : List Nat) : Res Nat :=
  loop x.dims.length 0 fun i t => do
    let j ← Res.get ix i
    let s ← Res.get x.strides i
    .ok (t + j * s)

/-- legacy/backendA/RtensorA.hpp:913-925, 941-946 `operator()(ix)`, `get_value(ix)`, `get(ix)`. -/
def get (x : RA) (ix : List Nat) (m : Buf α) : Res α := do
  let t ← x.offset ix
  m.read (x.arr + t)

/-- legacy/backendA/RtensorA.hpp:927-932, 948-953 `set_value(ix,v)`, `set(ix,v)`. -/
def set (x : RA) (ix : List Nat) (v : α) (m : Buf α) : Res (Buf α) := do
  let t ← x.offset ix
  m.write (x.arr + t) v

/-- legacy/backendA/RtensorA.hpp:934-939 `inc(ix,v)`. -/
def inc [Add α] (x : RA) (ix : List Nat) (v : α) (m : Buf α) : Res (Buf α) := do
  let t ← x.offset ix
  incCell m (x.arr + t) v

/-- legacy/backendA/RtensorA.hpp:969-983, 1025-1039, 1056-1061, 1074-1087, 1104-1109, 1122-1135, 1152-1157, 1170-1175, 1200-1205: one to five numbers. -/
def getInts (x : RA) (is : List Nat) (m : Buf α) : Res α := do
  Res.assrt (x.dims.length = is.length)
  x.get is m

/-- legacy/backendA/RtensorA.hpp:985-991, 1007-1019, 1041-1047, 1063-1068, 1089-1095, 1111-1116, 1137-1143, 1159-1164, 1207-1212: one to five numbers. -/
def setInts (x : RA) (is : List Nat) (v : α) (m : Buf α) : Res (Buf α) := do
  Res.assrt (x.dims.length = is.length)
  x.set is v m

/-- legacy/backendA/RtensorA.hpp:993-998, 1049-1054, 1097-1102, 1145-1150, 1193-1198: one to five numbers. -/
def incInts [Add α] (x : RA) (is : List Nat) (v : α) (m : Buf α) : Res (Buf α) := do
  Res.assrt (x.dims.length = is.length)
  x.inc is v m

/-- legacy/backendA/RtensorA.hpp:1000-1005 `RscalarA get(int i0)`: the offset `i0*strides[0]` is computed and `arr[i0]` is read. -/
def getScalar (x : RA) (i : Nat) (m : Buf α) : Res α := do
  Res.assrt (x.dims.length = 1)
  let _ ← Res.get x.strides 0
  m.read (x.arr + i)

/-- legacy/backendA/RtensorA.hpp:882-889 `combined_size(a,b)`. -/
def combinedSize (x : RA) (a b : Nat) : Res Nat := do
  Res.assrt (b ≤ x.dims.length)
  Res.assrt (a ≤ b)
  if 0 < b then do
    let s ← Res.get x.strides (b - 1)
    if s = 0 then .ok 0
    else if 0 < a then do
      let t ← Res.get x.strides (a - 1)
      .ok (t / s)
    else .ok (x.asize / s)
  else .ok 1

/-- legacy/backendA/RtensorA.hpp:891-898, the loop of `is_regular()`: the strides and sizes are given from the last. -/
def regularFrom : Nat → List (Nat × Nat) → Bool
  | _, [] => true
  | t, (s, d) :: l => if s ≠ t then false else regularFrom (t * d) l

/-- legacy/backendA/RtensorA.hpp:891-898 `is_regular()`. -/
def isRegular (x : RA) : Bool := regularFrom 1 (x.strides.zip x.dims).reverse

/-! ### Views -/

/-- legacy/backendA/RtensorA.hpp:1412-1418, 1439-1445, 1456-1462 `view4()`, `view5()`, `view6()`: tensor_views/Rtensor4_view.hpp:47-58,
tensor_views/Rtensor5_view.hpp:48-61, tensor_views/Rtensor6_view.hpp:48-63.  With `k` 1, 2, 3: legacy/backendA/RtensorA.hpp:1247-1249, 1275-1281, 1347-1355. -/
def viewK (k : Nat) (x : RA) : Res HV := HV.ofDims k k x.arr x.dims x.strides

/-- legacy/backendA/RtensorA.hpp:1468-1474 `viewx()`. -/
def viewx (x : RA) : HV := ⟨x.arr, x.dims, x.strides⟩

/-- legacy/backendA/RtensorA.hpp:1251-1254 `flattened_view()`. -/
def flattenedView (x : RA) : Res RV1 := do
  Res.assrt x.isRegular
  .ok ⟨x.arr, x.asize, 1⟩

/-- legacy/backendA/RtensorA.hpp:1316-1336 `block2(i0,i1,m0,m1)`; a size of -1 stands for the rest of the axis, and the model has no other negative sizes. -/
def block2 (x : RA) (i0 i1 : Nat) (m0 m1 : Int) : Res RV2 := do
  Res.assrt (x.dims.length = 2)
  let n0 : Int := if m0 = -1 then (x.dims.getD 0 0 : Int) - i0 else m0
  let n1 : Int := if m1 = -1 then (x.dims.getD 1 0 : Int) - i1 else m1
  Res.need (0 ≤ n0 ∧ 0 ≤ n1)
  .ok ⟨x.arr + i0 * x.strides.getD 0 0 + i1 * x.strides.getD 1 0, n0.toNat, n1.toNat, x.strides.getD 0 0, x.strides.getD 1 0⟩

/-- legacy/backendA/RtensorA.hpp:1367-1391 `block3(i0,i1,i2,m0,m1,m2)`, likewise. -/
def block3 (x : RA) (i0 i1 i2 : Nat) (m0 m1 m2 : Int) : Res RV3 := do
  Res.assrt (x.dims.length = 3)
  let n0 : Int := if m0 = -1 then (x.dims.getD 0 0 : Int) - i0 else m0
  let n1 : Int := if m1 = -1 then (x.dims.getD 1 0 : Int) - i1 else m1
  let n2 : Int := if m2 = -1 then (x.dims.getD 2 0 : Int) - i2 else m2
  Res.need (0 ≤ n0 ∧ 0 ≤ n1 ∧ 0 ≤ n2)
  .ok ⟨x.arr + i0 * x.strides.getD 0 0 + i1 * x.strides.getD 1 0 + i2 * x.strides.getD 2 0, n0.toNat, n1.toNat, n2.toNat,
    x.strides.getD 0 0, x.strides.getD 1 0, x.strides.getD 2 0⟩

/-- legacy/backendA/RtensorA.hpp:1357-1365 `view3_picking(j)`. -/
def view3Picking (x : RA) (j : Nat) : Res RV3 := do
  Res.assrt (0 < j)
  Res.assrt (j < x.dims.length)
  let n0 := (x.dims.take j).prod
  let n2 := (x.dims.drop (j + 1)).prod
  let d ← Res.get x.dims j
  let s0 ← Res.get x.strides (j - 1)
  let s1 ← Res.get x.strides j
  let s2 ← Res.get x.strides (x.strides.length - 1)
  .ok ⟨x.arr, n0, d, n2, s0, s1, s2⟩

/-- legacy/backendA/RtensorA.hpp:1485-1503 `window2_view(i0,i1,n0,n1)`: the view is `RtensorView(ptr,d,dev)`; there is no such constructor, and `dev` becomes,
by include/Gstrides.hpp:37-39, the vector of strides with the one entry `dev` (tensor_views/RtensorView.hpp:62-64). -/
def window2 (x : RA) (i0 i1 n0 n1 : Nat) : Res HV := do
  Res.assrt (2 ≤ x.dims.length)
  let s0 ← Res.get x.strides 0
  let s1 ← Res.get x.strides 1
  .ok ⟨x.arr + i0 * s0 + i1 * s1, (x.dims.set 0 n0).set 1 n1, [0]⟩

/-- legacy/backendA/RtensorA.hpp:1506-1528 `window3_view(i0,i1,i2,n0,n1,n2)`: the same, and `i2` is not used. -/
def window3 (x : RA) (i0 i1 _i2 n0 n1 n2 : Nat) : Res HV := do
  Res.assrt (3 ≤ x.dims.length)
  let s0 ← Res.get x.strides 0
  let s1 ← Res.get x.strides 1
  .ok ⟨x.arr + i0 * s0 + i1 * s1, ((x.dims.set 0 n0).set 1 n1).set 2 n2, [0]⟩

/-- include/Gstrides.hpp `offs(i0)`, `offs(i0,i1)`, … as used by tensor_views/RtensorView.hpp:81-104: each stride is read from the vector. -/
def stridesOffs (ss : List Nat) (is : List Nat) : Res Nat :=
  loop is.length 0 fun i t => do
    let j ← Res.get is i
    let s ← Res.get ss i
    .ok (t + j * s)

/-- tensor_views/RtensorView.hpp:81-104 `operator()(i0,i1,…)`. -/
def hvGet (v : HV) (is : List Nat) (m : Buf α) : Res α := do
  let t ← stridesOffs v.ss is
  m.read (v.arr + t)

/-! ### Chunks and slices -/

/-- legacy/backendA/RtensorA.hpp:1537-1539, 1567-1569: the sizes agree except on axis `ix`, where those of `x` may be smaller. -/
def chunkFits (r x : RA) (ix : Nat) : Bool :=
  (List.range r.dims.length).all fun i => if i ≠ ix then r.dims.getD i 0 = x.dims.getD i 0 else x.dims.getD i 0 ≤ r.dims.getD i 0

/-- legacy/backendA/RtensorA.hpp:1540-1544, 1654-1658: `strides[ix-1]`, or `asize` if `ix` is 0. -/
def above (x : RA) (ix : Nat) : Res Nat := if 0 < ix then Res.get x.strides (ix - 1) else .ok x.asize

/-- legacy/backendA/RtensorA.hpp:1534-1561 `add_to_chunk` (`op` is `+`) and 1564-1591 `set_chunk` (`op` is the second argument). -/
def toChunk (op : α → α → α) (r : RA) (ix offs : Nat) (x : RA) (m : Buf α) : Res (Buf α) := do
  Res.assrt (r.dims.length = x.dims.length)
  Res.assrt (chunkFits r x ix)
  let subsize ← x.above ix
  Res.need (subsize ≠ 0)
  let supsize := x.asize / subsize
  let jstride ← r.above ix
  let s ← Res.get r.strides ix
  loop supsize m fun j m => loop subsize m fun i m => updCell op m (r.arr + (j * jstride + offs * s + i)) (x.arr + (j * subsize + i))

/-- legacy/backendA/RtensorA.hpp:1594-1617 `add_chunk_of(x,ix,offs,n)`: `supsize` is `x.asize` divided by the sizes of this tensor. -/
def addChunkOf [Add α] (r x : RA) (ix offs n : Nat) (m : Buf α) : Res (Buf α) := do
  Res.assrt (r.dims.length = x.dims.length)
  Res.assrt (chunkFits x r ix)
  let s ← Res.get r.strides ix
  let d ← Res.get r.dims ix
  Res.need (s * d ≠ 0)
  let supsize := x.asize / (s * d)
  let jstride ← r.above ix
  let jxstride ← x.above ix
  let sx ← Res.get x.strides ix
  loop supsize m fun j m => loop n m fun a m => loop s m fun i m =>
    updCell (· + ·) m (r.arr + (j * jstride + a * s + i)) (x.arr + (j * jxstride + (a + offs) * sx + i))

/-- legacy/backendA/RtensorA.hpp:1620-1643 `chunk(ix,offs,n)`. -/
def chunk (junk : Nat → α) (q : Nat) (x : RA) (ix offs n : Nat) (m : Buf α) : Res (RA × Buf α) := do
  let dims ← gvSet x.dims ix n
  let (R, m) ← raw junk q dims m
  let s ← Res.get x.strides ix
  let d ← Res.get x.dims ix
  Res.need (s * d ≠ 0)
  let supsize := x.asize / (s * d)
  let jstride ← x.above ix
  let jxstride ← R.above ix
  let sx ← Res.get R.strides ix
  let m ← loop supsize m fun j m => loop n m fun a m => loop s m fun i m =>
    copyCell m (R.arr + (j * jxstride + a * sx + i)) (x.arr + (j * jstride + (a + offs) * s + i))
  .ok (R, m)

/-- legacy/backendA/RtensorA.hpp:1652-1653, 1677-1678: the sizes of `x` are those of `r` without axis `ix`. -/
def sliceFits (r x : RA) (ix : Nat) : Bool :=
  (List.range ix).all (fun i => r.dims.getD i 0 = x.dims.getD i 0) &&
    (List.range (x.dims.length - ix)).all fun i => r.dims.getD (ix + i + 1) 0 = x.dims.getD (ix + i) 0

/-- legacy/backendA/RtensorA.hpp:1649-1670 `add_to_slice(ix,offs,x)`. -/
def addToSlice [Add α] (r : RA) (ix offs : Nat) (x : RA) (m : Buf α) : Res (Buf α) := do
  Res.assrt (r.dims.length = x.dims.length + 1)
  Res.assrt (sliceFits r x ix)
  let subsize ← x.above ix
  Res.need (subsize ≠ 0)
  let supsize := x.asize / subsize
  let jstride ← r.above ix
  let s ← Res.get r.strides ix
  loop supsize m fun j m => loop subsize m fun i m => updCell (· + ·) m (r.arr + (j * jstride + offs * s + i)) (x.arr + (j * subsize + i))

/-- legacy/backendA/RtensorA.hpp:1673-1698 `add_to_slices(ix,v)`: the sizes are checked and taken from the first. -/
def addToSlices [Add α] (r : RA) (ix : Nat) (v : List RA) (m : Buf α) : Res (Buf α) := do
  let d ← Res.get r.dims ix
  Res.assrt (v.length = d)
  let x ← Res.get v 0
  Res.assrt (r.dims.length = x.dims.length + 1)
  Res.assrt (sliceFits r x ix)
  let subsize ← x.above ix
  Res.need (subsize ≠ 0)
  let supsize := x.asize / subsize
  let jstride ← r.above ix
  let s ← Res.get r.strides ix
  loop d m fun a m => loop supsize m fun j m => do
    let x ← Res.get v a
    loop subsize m fun i m => updCell (· + ·) m (r.arr + (j * jstride + a * s + i)) (x.arr + (j * subsize + i))

/-- legacy/backendA/RtensorA.hpp:1701-1722 `add_slice_of(x,ix,offs)`. -/
def addSliceOf [Add α] (r x : RA) (ix offs : Nat) (m : Buf α) : Res (Buf α) := do
  Res.assrt (x.dims.length = r.dims.length + 1)
  Res.assrt (sliceFits x r ix)
  let subsize ← r.above ix
  Res.need (subsize ≠ 0)
  let supsize := r.asize / subsize
  let jstride ← x.above ix
  let s ← Res.get x.strides ix
  loop supsize m fun j m => loop subsize m fun i m => updCell (· + ·) m (r.arr + (j * subsize + i)) (x.arr + (j * jstride + offs * s + i))

/-- legacy/backendA/RtensorA.hpp:1725-1749 `slice(ix,offs)`, `slice0(i)`. -/
def slice (junk : Nat → α) (q : Nat) (x : RA) (ix offs : Nat) (m : Buf α) : Res (RA × Buf α) := do
  let dims ← gvRemove x.dims ix
  let (R, m) ← raw junk q dims m
  let subsize ← R.above ix
  Res.need (subsize ≠ 0)
  let supsize := R.asize / subsize
  let jstride ← x.above ix
  let s ← Res.get x.strides ix
  let m ← loop supsize m fun j m => loop subsize m fun i m => copyCell m (R.arr + (j * subsize + i)) (x.arr + (j * jstride + offs * s + i))
  .ok (R, m)

/-- legacy/backendA/RtensorA.hpp:1752-1765 `view_of_slice0(i)` with the constructor of 264-268. -/
def viewOfSlice0 (x : RA) (i : Nat) : Res RA := do
  let dims ← gvRemove x.dims 0
  let d ← Res.get x.dims 0
  Res.need (d ≠ 0)
  let s ← Res.get x.strides 0
  .ok ⟨x.arr + s * i, dims, x.strides.drop 1, x.asize / d, x.memsize / d, x.asize / d, x.nbu, true⟩

/-! ### Elementwise operations -/

/-- legacy/backendA/RtensorA.hpp:1771-1780 `set_zero()`. -/
def setZero [Zero α] (x : RA) (m : Buf α) : Res (Buf α) := fillArr (fun _ => 0) x x.asize m

/-- `for(i<asize) arr[i]=f(arr[i])`, as in legacy/backendA/RtensorA.hpp:1785-1787. -/
def mapSelf (f : α → α) (x : RA) (m : Buf α) : Res (Buf α) :=
  loop x.asize m fun i m => do
    let a ← m.read (x.arr + i)
    m.write (x.arr + i) (f a)

/-- legacy/backendA/RtensorA.hpp:1783-1798 `inplace_times(c)`. -/
def inplaceTimes [Mul α] (x : RA) (c : α) (m : Buf α) : Res (Buf α) := x.mapSelf (· * c) m

/-- legacy/backendA/RtensorA.hpp:1800-1802 `inplace_div(c)`. -/
def inplaceDiv [Mul α] [One α] [Div α] (x : RA) (c : α) (m : Buf α) : Res (Buf α) := x.inplaceTimes (1 / c) m

/-- legacy/backendA/RtensorA.hpp:2030-2041 `set(x)`. -/
def setT (r x : RA) (m : Buf α) : Res (Buf α) := do
  Res.assrt (r.asize = x.asize)
  stdCopy m x.arr r.asize r.arr

/-- `assert(asize==x.asize); for(i<asize) arr[i]=op(arr[i],x.arr[i])`, as in legacy/backendA/RtensorA.hpp:2047-2049. -/
def zipT (op : α → α → α) (r x : RA) (m : Buf α) : Res (Buf α) := do
  Res.assrt (r.asize = x.asize)
  loop r.asize m fun i m => updCell op m (r.arr + i) (x.arr + i)

/-- legacy/backendA/RtensorA.hpp:2044-2063 `add(x)`, `operator+=`. -/
def add [Add α] (r x : RA) (m : Buf α) : Res (Buf α) := zipT (· + ·) r x m

/-- legacy/backendA/RtensorA.hpp:2065-2082, 2100-2103 `add(x,c)`, `add_prod(c,A)`. -/
def addScaled [Add α] [Mul α] (r x : RA) (c : α) (m : Buf α) : Res (Buf α) := zipT (fun a b => a + b * c) r x m

/-- legacy/backendA/RtensorA.hpp:2105-2112 `add_divide(x,c)`. -/
def addDivide [Add α] [Mul α] [One α] [Div α] (r x : RA) (c : α) (m : Buf α) : Res (Buf α) := addScaled r x (1 / c) m

/-- legacy/backendA/RtensorA.hpp:2138-2148 `subtract(x)`. -/
def subtract [Sub α] (r x : RA) (m : Buf α) : Res (Buf α) := zipT (· - ·) r x m

/-- legacy/backendA/RtensorA.hpp:2569-2574 `add_ReLU(x)` (`alpha` = 0) and 2576-2581 `add_ReLU(x,alpha)`; `pos` is `>0`, `neg` is `<0`. -/
def addReLU [Add α] [Mul α] [Zero α] [One α] (pos neg : α → Bool) (alpha : α) (r x : RA) (m : Buf α) : Res (Buf α) :=
  zipT (fun a b => a + ((if pos b then 1 else 0) + alpha * (if neg b then 1 else 0)) * b) r x m

/-- legacy/backendA/RtensorA.hpp:2115-2136 `add_sum(v)`. -/
def addSum [Add α] (r : RA) (v : List RA) (m : Buf α) : Res (Buf α) :=
  Res.forM v m fun m o => do
    Res.assrt (o.asize = r.asize)
    loop r.asize m fun j m => updCell (· + ·) m (r.arr + j) (o.arr + j)

/-- Two checks of sizes, then `for(i<asize) arr[i]=op(arr[i],x.arr[i],y.arr[i])`, as in legacy/backendA/RtensorA.hpp:2153-2158. -/
def zip3T (op : α → α → α → α) (r x y : RA) (m : Buf α) : Res (Buf α) := do
  Res.assrt (r.asize = x.asize)
  Res.assrt (r.asize = y.asize)
  loop r.asize m fun i m => do
    let a ← m.read (r.arr + i)
    let b ← m.read (x.arr + i)
    let c ← m.read (y.arr + i)
    m.write (r.arr + i) (op a b c)

/-- legacy/backendA/RtensorA.hpp:2150-2166 `add_plus(x,y)`. -/
def addPlus [Add α] (r x y : RA) (m : Buf α) : Res (Buf α) := zip3T (fun a b c => a + (b + c)) r x y m

/-- legacy/backendA/RtensorA.hpp:2168-2185 `add_minus(x,y)`. -/
def addMinus [Add α] [Sub α] (r x y : RA) (m : Buf α) : Res (Buf α) := zip3T (fun a b c => a + (b - c)) r x y m

/-- legacy/backendA/RtensorA.hpp:2583-2590 `add_ReLU_back(g,x)` (`alpha` = 0) and 2592-2599 `add_ReLU_back(g,x,alpha)`. -/
def addReLUback [Add α] [Mul α] [Zero α] [One α] (pos : α → Bool) (alpha : α) (r g x : RA) (m : Buf α) : Res (Buf α) :=
  zip3T (fun a b c => a + ((if pos b then 1 else 0) + (if pos b then 0 else 1) * alpha) * c) r x g m

/-- legacy/backendA/RtensorA.hpp:1854-1858 `plus(x)`. -/
def plus [Add α] (junk : Nat → α) (q : Nat) (x y : RA) (m : Buf α) : Res (RA × Buf α) := do
  let (R, m) ← copy junk q x m
  let m ← add R y m
  .ok (R, m)

/-- legacy/backendA/RtensorA.hpp:430-436, the constructor that applies a function to each number. -/
def mapped (f : α → α) (junk : Nat → α) (q : Nat) (x : RA) (m : Buf α) : Res (RA × Buf α) := do
  let (R, m) ← raw junk q x.dims m
  let m ← loop R.asize m fun i m => do
    let a ← m.read (x.arr + i)
    m.write (R.arr + i) (f a)
  .ok (R, m)

/-- legacy/backendA/RtensorA.hpp:422-428, a matrix from a function. -/
def ofFn (f : Nat → Nat → α) (junk : Nat → α) (q : Nat) (dims : List Nat) (m : Buf α) : Res (RA × Buf α) := do
  let (R, m) ← raw junk q dims m
  Res.assrt (dims.length = 2)
  let m ← loop (R.dims.getD 0 0) m fun i m => loop (R.dims.getD 1 0) m fun j m => R.setInts [i, j] (f i j) m
  .ok (R, m)

/-! ### Numbers computed from tensors -/

/-- legacy/backendA/RtensorA.hpp:1948-1958 `norm2()`. -/
def norm2 [Zero α] [Add α] [Mul α] (x : RA) (m : Buf α) : Res α :=
  loop x.asize 0 fun i t => do
    let a ← m.read (x.arr + i)
    .ok (t + a * a)

/-- legacy/backendA/RtensorA.hpp:1961-1975 `inp(x)`. -/
def inp [Zero α] [Add α] [Mul α] (r x : RA) (m : Buf α) : Res α := do
  Res.assrt (r.asize = x.asize)
  if r.asize = 0 then .ok 0 else
    loop r.asize 0 fun i t => do
      let a ← m.read (r.arr + i)
      let b ← m.read (x.arr + i)
      .ok (t + a * b)

/-- legacy/backendA/RtensorA.hpp:1978-1994 `diff2(x)`. -/
def diff2 [Zero α] [Add α] [Sub α] [Mul α] (r x : RA) (m : Buf α) : Res α := do
  Res.assrt (r.asize = x.asize)
  if r.asize = 0 then .ok 0 else
    loop r.asize 0 fun i t => do
      let a ← m.read (r.arr + i)
      let b ← m.read (x.arr + i)
      .ok (t + (a - b) * (a - b))

/-- legacy/backendA/RtensorA.hpp:1996-2003 `max()`. -/
def maxT [Zero α] [Max α] (x : RA) (m : Buf α) : Res α :=
  if x.asize = 0 then .ok 0 else do
    let t ← m.read x.arr
    loop x.asize t fun i t => do
      let a ← m.read (x.arr + i)
      .ok (max t a)

/-! ### Transposes and products -/

/-- legacy/backendA/RtensorA.hpp:1816-1852 `transp(n)`, `transpp(n)`. -/
def transp (junk : Nat → α) (q : Nat) (x : RA) (n : Nat) (m : Buf α) : Res (RA × Buf α) := do
  let J ← x.combinedSize 0 n
  Res.need (J ≠ 0)
  let I := x.asize / J
  let (R, m) ← raw junk q [I, J] m
  let m ← loop I m fun i m => loop J m fun j m => copyCell m (R.arr + (i * J + j)) (x.arr + (j * I + i))
  .ok (R, m)

/-- legacy/backendA/RtensorA.hpp:2187-2206 `add_transp(x,n)`. -/
def addTransp [Add α] (r x : RA) (n : Nat) (m : Buf α) : Res (Buf α) := do
  Res.assrt (r.asize = x.asize)
  let J ← x.combinedSize 0 n
  Res.need (J ≠ 0)
  let I := x.asize / J
  loop I m fun i m => loop J m fun j m => updCell (· + ·) m (r.arr + (i * J + j)) (x.arr + (j * I + i))

/-- The loops of legacy/backendA/RtensorA.hpp:2404-2416, 2453-2465, 2504-2516: `p i k` and `q k j` are the cells of the factors. -/
def mprodLoop [Zero α] [Add α] [Mul α] (r : RA) (I J K : Nat) (p q : Nat → Nat → Nat) (m : Buf α) : Res (Buf α) :=
  loop I m fun i m => loop J m fun j m => do
    let t ← loop K (0 : α) fun k t => do
      let a ← m.read (p i k)
      let b ← m.read (q k j)
      .ok (t + a * b)
    incCell m (r.arr + (i * J + j)) t

/-- legacy/backendA/RtensorA.hpp:2375-2429 `add_Mprod_AA(x,y,nx,ny)`, `add_mprod`, `add_mprod_AA`.  When `nx` is larger than the number of axes the second call
of `combined_size` on `x` throws. -/
def addMprodAA [Zero α] [Add α] [Mul α] (r x y : RA) (nx ny : Nat) (m : Buf α) : Res (Buf α) :=
  if x.asize = 0 ∨ y.asize = 0 then .ok m else do
    Res.assrt (nx ≤ x.dims.length)
    let K ← x.combinedSize (x.dims.length - nx) x.dims.length
    let K' ← y.combinedSize 0 ny
    Res.assrt (K' = K)
    let I ← x.combinedSize 0 (x.dims.length - nx)
    let J ← y.combinedSize ny y.dims.length
    Res.assrt (r.asize = I * J)
    if r.asize = 0 then .ok m else
      mprodLoop r I J K (fun i k => x.arr + (i * K + k)) (fun k j => y.arr + (k * J + j)) m

/-- legacy/backendA/RtensorA.hpp:2433-2479 `add_Mprod_AT(x,y,nx,ny)`. -/
def addMprodAT [Zero α] [Add α] [Mul α] (r x y : RA) (nx ny : Nat) (m : Buf α) : Res (Buf α) :=
  if x.asize = 0 ∨ y.asize = 0 then .ok m else do
    Res.assrt (nx ≤ x.dims.length)
    let K ← x.combinedSize (x.dims.length - nx) x.dims.length
    Res.assrt (ny ≤ y.dims.length)
    let K' ← y.combinedSize (y.dims.length - ny) y.dims.length
    Res.assrt (K' = K)
    let I ← x.combinedSize 0 (x.dims.length - nx)
    let J ← y.combinedSize 0 (y.dims.length - ny)
    Res.assrt (r.asize = I * J)
    if r.asize = 0 then .ok m else
      mprodLoop r I J K (fun i k => x.arr + (i * K + k)) (fun k j => y.arr + (k + j * K)) m

/-- legacy/backendA/RtensorA.hpp:2483-2530 `add_Mprod_TA(x,y,nx,ny)`. -/
def addMprodTA [Zero α] [Add α] [Mul α] (r x y : RA) (nx ny : Nat) (m : Buf α) : Res (Buf α) :=
  if x.asize = 0 ∨ y.asize = 0 then .ok m else do
    let K ← x.combinedSize 0 nx
    let K' ← y.combinedSize 0 ny
    Res.assrt (K' = K)
    let I ← x.combinedSize nx x.dims.length
    let J ← y.combinedSize ny y.dims.length
    Res.assrt (r.asize = I * J)
    if r.asize = 0 then .ok m else
      mprodLoop r I J K (fun i k => x.arr + (i + k * I)) (fun k j => y.arr + (k * J + j)) m

/-- legacy/backendA/RtensorA.hpp:2009-2023 `operator*(x)`, a matrix times a vector. -/
def mulVec [Zero α] [Add α] [Mul α] (junk : Nat → α) (q : Nat) (A x : RA) (m : Buf α) : Res (RA × Buf α) := do
  Res.assrt (A.dims.length = 2)
  Res.assrt (x.dims.length = 1)
  let (R, m) ← zero junk q [A.dims.getD 0 0] m
  let m ← loop (A.dims.getD 0 0) m fun i m => do
    let t ← loop (A.dims.getD 1 0) (0 : α) fun j t => do
      let a ← A.getInts [i, j] m
      let b ← x.getInts [j] m
      .ok (t + a * b)
    R.setInts [i] t m
  .ok (R, m)

/-- legacy/backendA/RtensorA.hpp:1931-1941 `tensor_product(y)`. -/
def tensorProduct [Mul α] (junk : Nat → α) (q : Nat) (x y : RA) (m : Buf α) : Res (RA × Buf α) := do
  let (R, m) ← raw junk q (gvCat x.dims y.dims) m
  Res.assrt (x.dims.length = 2)
  Res.assrt (y.dims.length = 2)
  let m ← nestLoop [x.dims.getD 0 0, x.dims.getD 1 0, y.dims.getD 0 0, y.dims.getD 1 0] m fun ix m => do
    let a ← x.getInts (ix.take 2) m
    let b ← y.getInts (ix.drop 2) m
    R.setInts ix (a * b) m
  .ok (R, m)

/-! ### Columns -/

/-- legacy/backendA/RtensorA.hpp:1887-1889, 2237-2239, 2265-2267: the last two sizes `J`, `I` and `A=asize/(I*J)`. -/
def lastTwo (x : RA) : Res (Nat × Nat × Nat) := do
  Res.assrt (2 ≤ x.dims.length)
  let J ← Res.get x.dims (x.dims.length - 1)
  let I ← Res.get x.dims (x.dims.length - 2)
  Res.need (I * J ≠ 0)
  .ok (x.asize / (I * J), I, J)

/-- legacy/backendA/RtensorA.hpp:2233-2256 `add_col_norms(x)`; `sq` is `sqrt`. -/
def addColNorms [Zero α] [Add α] [Mul α] (sq : α → α) (r x : RA) (m : Buf α) : Res (Buf α) := do
  let (A, I, J) ← x.lastTwo
  Res.assrt (r.asize = A * J)
  loop A m fun a m => loop J m fun j m => do
    let t ← loop I (0 : α) fun i t => do
      let v ← m.read (x.arr + (a * I * J + i * J + j))
      .ok (t + v * v)
    incCell m (r.arr + (a * J + j)) (sq t)

/-- The loops of legacy/backendA/RtensorA.hpp:2271-2279, 2296-2306, 2323-2335: for each column the number `z` is computed, then each entry of the column is
incremented by `f` of the entry of `X` and of `z`. -/
def colsLoop [Add α] (f : α → α → α) (z : Nat → Buf α → Res α) (r X : RA) (A I J : Nat) (m : Buf α) : Res (Buf α) :=
  loop A m fun a m => loop J m fun j m => do
    let z ← z (a * J + j) m
    loop I m fun i m => do
      let v ← m.read (X.arr + (a * I * J + i * J + j))
      incCell m (r.arr + (a * I * J + i * J + j)) (f v z)

/-- legacy/backendA/RtensorA.hpp:2259-2283 `add_col_norms_back(G,X,N)`. -/
def addColNormsBack [Add α] [Mul α] [Div α] (r G X N : RA) (m : Buf α) : Res (Buf α) := do
  Res.assrt (2 ≤ r.dims.length)
  Res.assrt (X.asize = r.asize)
  let (A, I, J) ← r.lastTwo
  Res.assrt (N.asize = r.asize / I)
  Res.assrt (G.asize = N.asize)
  colsLoop (· * ·) (fun c m => do
    let g ← m.read (G.arr + c)
    let n ← m.read (N.arr + c)
    .ok (g / n)) r X A I J m

/-- legacy/backendA/RtensorA.hpp:2286-2310 `add_divide_cols(X,N)` and 2313-2339 `add_divide_cols_back0(G,N)`. -/
def addDivideCols [Add α] [Div α] (r X N : RA) (m : Buf α) : Res (Buf α) := do
  Res.assrt (2 ≤ r.dims.length)
  Res.assrt (X.asize = r.asize)
  let (A, I, J) ← r.lastTwo
  Res.assrt (N.asize = r.asize / I)
  colsLoop (· / ·) (fun c m => m.read (N.arr + c)) r X A I J m

/-- legacy/backendA/RtensorA.hpp:2342-2369 `add_divide_cols_back1(G,X,N)`; `sqInv n` is `pow(n,-2)`. -/
def addDivideColsBack1 [Add α] [Neg α] [Mul α] (sqInv : α → α) (r G X N : RA) (m : Buf α) : Res (Buf α) := do
  Res.assrt (2 ≤ G.dims.length)
  Res.assrt (G.dims = X.dims)
  Res.assrt (r.dims = N.dims)
  let (A, I, J) ← G.lastTwo
  Res.assrt (N.asize = G.asize / I)
  Res.assrt (r.asize = N.asize)
  loop A m fun a m => loop J m fun j m => do
    let n ← m.read (N.arr + (a * J + j))
    loop I m fun i m => do
      let g ← m.read (G.arr + (a * I * J + i * J + j))
      let v ← m.read (X.arr + (a * I * J + i * J + j))
      incCell m (r.arr + (a * J + j)) (g * v * -sqInv n)

/-- legacy/backendA/RtensorA.hpp:1876-1878, 1884-1906 `divide_cols(N)`: what is divided is the new tensor of zeros. -/
def divideCols [Zero α] [Div α] (junk : Nat → α) (q : Nat) (x N : RA) (m : Buf α) : Res (RA × Buf α) := do
  let (A, I, J) ← x.lastTwo
  Res.assrt (N.asize = x.asize / I)
  let (R, m) ← zero junk q x.dims m
  let m ← loop A m fun a m => loop J m fun j m => do
    let z ← m.read (N.arr + (a * J + j))
    loop I m fun i m => do
      let v ← m.read (R.arr + (a * I * J + i * J + j))
      m.write (R.arr + (a * I * J + i * J + j)) (v / z)
  .ok (R, m)

/-- legacy/backendA/RtensorA.hpp:1880-1882, 1908-1928 `normalize_cols()`: runs of length `dims[k-1]` are divided by the root of the sum of their squares. -/
def normalizeCols [Zero α] [Add α] [Mul α] [Div α] (sq : α → α) (junk : Nat → α) (q : Nat) (x : RA) (m : Buf α) : Res (RA × Buf α) := do
  let J ← Res.get x.dims (x.dims.length - 1)
  Res.need (J ≠ 0)
  let I := x.asize / J
  let (R, m) ← copy junk q x m
  let m ← loop I m fun i m => do
    let t ← loop J (0 : α) fun j t => do
      let v ← m.read (R.arr + (i * J + j))
      .ok (t + v * v)
    let z := sq t
    loop J m fun j m => do
      let v ← m.read (R.arr + (i * J + j))
      m.write (R.arr + (i * J + j)) (v / z)
  .ok (R, m)

/-! ### Reductions -/

/-- legacy/backendA/RtensorA.hpp:2536-2548 `reduce_destructively(j)`: after the branch for `j==0` the code for the other axes runs too. -/
def reduceDestr [Zero α] [Add α] (junk : Nat → α) (q : Nat) (x : RA) (j : Nat) (m : Buf α) : Res (RA × Buf α) := do
  Res.assrt x.isRegular
  let D ← gvRemove x.dims j
  let (R, m) ← zero junk q D m
  let lx ← Res.get x.strides (x.strides.length - 1)
  let lr ← Res.get R.strides (R.strides.length - 1)
  let m ← (if j = 0 then do
      let d ← Res.get x.dims 0
      Res.need (d ≠ 0)
      let s ← Res.get x.strides 0
      RV2.reduce0Into ⟨x.arr, d, x.asize / d, s, lx⟩ ⟨R.arr, R.asize, lr⟩ m
    else .ok m)
  let n0 := (R.dims.take j).prod
  let n1 := (R.dims.drop j).prod
  let v ← x.view3Picking j
  let s ← Res.get R.strides (j - 1)
  let m ← v.reduce1Into ⟨R.arr, n0, n1, s, lr⟩ m
  .ok (R, m)

end RA

end Cnine
