import Verif.Model.RtensorA
import Verif.Model.CView

/-!
# Model of legacy/backendA/CtensorA.hpp

Complex tensors of the old backend, on the CPU (`dev=0`), as in Verif/Model/RtensorA.lean.  A tensor has two arrays, `arr` with the real parts and `arrc` with the
imaginary parts.  `re` and `im` are the tensors of real and of imaginary parts: the functions of CtensorA.hpp whose text is that of RtensorA.hpp are modelled by
the functions of RtensorA.lean on `re` and `im`.
-/

namespace Cnine

variable {α : Type}

/-- legacy/backendA/CtensorA.hpp:49-71, without `k` (always `dims.size()`), `dev`, `arrg` and `arrgc`. -/
structure CA where
  arr : Nat
  arrc : Nat
  dims : List Nat
  strides : List Nat
  asize : Nat
  memsize : Nat
  cst : Nat
  nbu : Int
  isView : Bool
deriving DecidableEq

namespace CA

/-- The real parts: the fields of legacy/backendA/CtensorA.hpp:49-71 with `arr`; each part has `cst` cells. -/
def re (x : CA) : RA := ⟨x.arr, x.dims, x.strides, x.asize, x.cst, x.cst, x.nbu, x.isView⟩

/-- The imaginary parts: the fields of legacy/backendA/CtensorA.hpp:49-71 with `arrc`. -/
def im (x : CA) : RA := ⟨x.arrc, x.dims, x.strides, x.asize, x.cst, x.cst, x.nbu, x.isView⟩

/-! ### Constructors -/

/-- legacy/backendA/CtensorA.hpp:104-127, 263-264 (and 258-261, where `nbu` is put before the sizes and not stored). -/
def raw (junk : Nat → α) (q : Nat) (dims : List Nat) (m : Buf α) : Res (CA × Buf α) := do
  let R ← RA.noalloc q dims
  .ok (⟨q, q + R.cst, R.dims, R.strides, R.asize, 2 * R.cst, R.cst, -1, false⟩, allocRaw junk m q (2 * R.cst))

/-- legacy/backendA/CtensorA.hpp:266-270: all of the memory is filled. -/
def zero [Zero α] (junk : Nat → α) (q : Nat) (dims : List Nat) (m : Buf α) : Res (CA × Buf α) := do
  let (R, m) ← raw junk q dims m
  let m ← RA.fillArr (fun _ => 0) R.re R.memsize m
  .ok (R, m)

/-- legacy/backendA/CtensorA.hpp:272-277 ones and 288-302 random numbers: `f` and `g` are the real and imaginary parts. -/
def filled (f g : Nat → α) (junk : Nat → α) (q : Nat) (dims : List Nat) (m : Buf α) : Res (CA × Buf α) := do
  let (R, m) ← raw junk q dims m
  let m ← RA.fillArr f R.re R.asize m
  let m ← RA.fillArr g R.im R.asize m
  .ok (R, m)

/-- legacy/backendA/CtensorA.hpp:272-277. -/
def ones [Zero α] [One α] (junk : Nat → α) (q : Nat) (dims : List Nat) (m : Buf α) : Res (CA × Buf α) := filled (fun _ => 1) (fun _ => 0) junk q dims m

/-- legacy/backendA/CtensorA.hpp:279-286: ones on the diagonal of the first matrix. -/
def identity [Zero α] [One α] (junk : Nat → α) (q : Nat) (dims : List Nat) (m : Buf α) : Res (CA × Buf α) := do
  let (R, m) ← raw junk q dims m
  Res.need (2 ≤ dims.length)
  let a ← Res.get dims (dims.length - 1)
  let b ← Res.get dims (dims.length - 2)
  Res.assrt (a = b)
  let m ← RA.fillArr (fun _ => 0) R.re R.memsize m
  let s ← Res.get R.strides (dims.length - 2)
  let m ← loop a m fun i m => m.write (R.arr + i * (s + 1)) 1
  .ok (R, m)

/-- legacy/backendA/CtensorA.hpp:304-308. -/
def sequential [Zero α] [NatCast α] (junk : Nat → α) (q : Nat) (dims : List Nat) (m : Buf α) : Res (CA × Buf α) := do
  let (R, m) ← zero junk q dims m
  let m ← RA.fillArr (fun i => (i : α)) R.re R.asize m
  .ok (R, m)

/-- legacy/backendA/CtensorA.hpp:310-315: with `nbu` before the sizes, and stored. -/
def batchZero [Zero α] (junk : Nat → α) (q nbu : Nat) (dims : List Nat) (m : Buf α) : Res (CA × Buf α) := do
  let (R, m) ← zero junk q (gvPrepend dims nbu) m
  .ok ({ R with nbu := nbu }, m)

/-- legacy/backendA/CtensorA.hpp:335-343, a function of each number. -/
def mapped (f : Cx α → Cx α) (junk : Nat → α) (q : Nat) (x : CA) (m : Buf α) : Res (CA × Buf α) := do
  let (R, m) ← raw junk q x.dims m
  let m ← loop R.asize m fun i m => do
    let t ← getC (x.arr + i) (x.arrc + i) m
    setC (R.arr + i) (R.arrc + i) (f t) m
  .ok (R, m)

/-- legacy/backendA/CtensorA.hpp:185-199, 358-370 (and 372-397, 436-438, 658-664 on the CPU): a copy. -/
def copy (junk : Nat → α) (q : Nat) (x : CA) (m : Buf α) : Res (CA × Buf α) := do
  let R : CA := { x with arr := q, arrc := q + x.cst, nbu := -1, isView := false }
  let m ← stdCopy (allocRaw junk m q x.memsize) x.arr x.asize R.arr
  let m ← stdCopy m x.arrc x.asize R.arrc
  .ok (R, m)

/-- legacy/backendA/CtensorA.hpp:412-419, a view. -/
def viewOf (x : CA) : CA := { x with nbu := -1, isView := true }

/-- legacy/backendA/CtensorA.hpp:218-229 `reshape(dims)`. -/
def reshape (x : CA) (dims : List Nat) : Res CA := do
  Res.assrt (Cnine.asize dims = x.asize)
  let R ← RA.noalloc x.arr dims
  .ok { x with dims := R.dims, strides := R.strides, asize := R.asize, cst := R.cst, memsize := 2 * R.cst }

/-! ### Pointers -/

/-- The pointers `arr` and `arrc`, legacy/backendA/CtensorA.hpp:67-68, with `is_view`; `none` is `nullptr`. -/
structure Ptrs where
  arr : Option Nat
  arrc : Option Nat
  isView : Bool
deriving DecidableEq

/-- `delete p` of an array that `new float[n]` made, legacy/backendA/CtensorA.hpp:458, 484: undefined unless `p` is null. -/
def deleteOne : Option Nat → Res Unit
  | none => .ok ()
  | some _ => .ub

/-- legacy/backendA/CtensorA.hpp:421-431, the constructor that moves: the new object and what is left of the old. -/
def Ptrs.move (x : Ptrs) : Ptrs × Ptrs := (x, ⟨none, none, x.isView⟩)

/-- legacy/backendA/CtensorA.hpp:481-492 `operator=(CtensorA&&)`: `x.arr` is null when it is copied to `arrc`. -/
def Ptrs.moveAssign (r x : Ptrs) : Res (Ptrs × Ptrs) := do
  if ¬ r.isView then deleteOne r.arr
  .ok (⟨x.arr, none, x.isView⟩, ⟨none, none, x.isView⟩)

/-- legacy/backendA/CtensorA.hpp:440-478 `operator=(const CtensorA&)` of a tensor that is not a view, up to the pointers: the new array is at `q`. -/
def Ptrs.assign (r : Ptrs) (q cst : Nat) : Res Ptrs := do
  deleteOne r.arr
  .ok ⟨some q, some (q + cst), false⟩

/-- legacy/backendA/CtensorA.hpp:440-456 `operator=(const CtensorA&)` of a view: the numbers are copied. -/
def assignView (r x : CA) (m : Buf α) : Res (CA × Buf α) := do
  let R : CA := { r with dims := x.dims, strides := x.strides, asize := x.asize, memsize := x.memsize, cst := x.cst }
  let m ← stdCopy m x.arr x.asize R.arr
  let m ← stdCopy m x.arrc x.asize R.arrc
  .ok (R, m)

/-- `complex<float>(arr[t],arrc[t])` through pointers, legacy/backendA/CtensorA.hpp:711-716. -/
def Ptrs.get (x : Ptrs) (t : Nat) (m : Buf α) : Res (Cx α) :=
  match x.arr, x.arrc with
  | some p, some q => getC (p + t) (q + t) m
  | _, _ => .ub

/-! ### Access -/

/-- legacy/backendA/CtensorA.hpp:711-723, 741-745 `operator()(ix)`, `get_value(ix)`, `get(ix)`. -/
def get (x : CA) (ix : List Nat) (m : Buf α) : Res (Cx α) := do
  let t ← x.re.offset ix
  getC (x.arr + t) (x.arrc + t) m

/-- legacy/backendA/CtensorA.hpp:725-731, 747-752 `set_value(ix,v)`, `set(ix,v)`. -/
def set (x : CA) (ix : List Nat) (v : Cx α) (m : Buf α) : Res (Buf α) := do
  let t ← x.re.offset ix
  setC (x.arr + t) (x.arrc + t) v m

/-- legacy/backendA/CtensorA.hpp:733-739 `inc(ix,v)`. -/
def inc [Add α] (x : CA) (ix : List Nat) (v : Cx α) (m : Buf α) : Res (Buf α) := do
  let t ← x.re.offset ix
  incC (x.arr + t) (x.arrc + t) v m

/-- legacy/backendA/CtensorA.hpp:925-931 `add_element_into(r,ix)`: with `nbu` other than -1 it only prints (include/Cnine_base.hpp:57). -/
def addElementInto [Add α] (x : CA) (r : Cx α) (ix : List Nat) (m : Buf α) : Res (Cx α) :=
  if x.nbu = -1 then do
    let v ← x.get ix m
    .ok (r + v)
  else .ok r

/-- legacy/backendA/CtensorA.hpp:933-939 `add_to_element(ix,r)`: with `nbu` other than -1 it only prints. -/
def addToElement [Add α] (x : CA) (ix : List Nat) (r : Cx α) (m : Buf α) : Res (Buf α) :=
  if x.nbu = -1 then x.inc ix r m else .ok m

/-- legacy/backendA/CtensorA.hpp:769-783, 802-807, 821-835, 854-859, 873-887, 906-911: one to three numbers. -/
def getInts (x : CA) (is : List Nat) (m : Buf α) : Res (Cx α) := do
  Res.assrt (x.dims.length = is.length)
  x.get is m

/-- legacy/backendA/CtensorA.hpp:785-792, 809-815, 837-844, 861-867, 889-896, 913-919: one to three numbers. -/
def setInts (x : CA) (is : List Nat) (v : Cx α) (m : Buf α) : Res (Buf α) := do
  Res.assrt (x.dims.length = is.length)
  x.set is v m

/-- legacy/backendA/CtensorA.hpp:794-800, 846-852, 898-904: one to three numbers. -/
def incInts [Add α] (x : CA) (is : List Nat) (v : Cx α) (m : Buf α) : Res (Buf α) := do
  Res.assrt (x.dims.length = is.length)
  x.inc is v m

/-- legacy/backendA/CtensorA.hpp:327-333, a matrix from a function. -/
def ofFn (f : Nat → Nat → Cx α) (junk : Nat → α) (q : Nat) (dims : List Nat) (m : Buf α) : Res (CA × Buf α) := do
  let (R, m) ← raw junk q dims m
  Res.assrt (dims.length = 2)
  let m ← loop (R.dims.getD 0 0) m fun i m => loop (R.dims.getD 1 0) m fun j m => R.setInts [i, j] (f i j) m
  .ok (R, m)

/-! ### Chunks and slices -/

/-- `arr[p]=op(arr[p],x.arr[s]); arrc[p]=op'(arrc[p],x.arrc[s]);`, as in legacy/backendA/CtensorA.hpp:962-963. -/
def updC (op op' : α → α → α) (r x : CA) (p s : Nat) (m : Buf α) : Res (Buf α) := do
  let m ← updCell op m (r.arr + p) (x.arr + s)
  updCell op' m (r.arrc + p) (x.arrc + s)

/-- `R.arr[p]=x.arr[s]; R.arrc[p]=x.arrc[s];`, as in legacy/backendA/CtensorA.hpp:1051-1052. -/
def copyC (r x : CA) (p s : Nat) (m : Buf α) : Res (Buf α) := do
  let m ← copyCell m (r.arr + p) (x.arr + s)
  copyCell m (r.arrc + p) (x.arrc + s)

/-- legacy/backendA/CtensorA.hpp:945-974 `add_to_chunk` (`op` is `+`) and 977-1006 `set_chunk` (`op` is the second argument). -/
def toChunk (op : α → α → α) (r : CA) (ix offs : Nat) (x : CA) (m : Buf α) : Res (Buf α) := do
  Res.assrt (r.dims.length = x.dims.length)
  Res.assrt (RA.chunkFits r.re x.re ix)
  let subsize ← x.re.above ix
  Res.need (subsize ≠ 0)
  let supsize := x.asize / subsize
  let jstride ← r.re.above ix
  let s ← Res.get r.strides ix
  loop supsize m fun j m => loop subsize m fun i m => updC op op r x (j * jstride + offs * s + i) (j * subsize + i) m

/-- legacy/backendA/CtensorA.hpp:1009-1033 `add_chunk_of(x,ix,offs,n)`: `supsize` is `x.asize` divided by the sizes of this tensor. -/
def addChunkOf [Add α] (r x : CA) (ix offs n : Nat) (m : Buf α) : Res (Buf α) := do
  Res.assrt (r.dims.length = x.dims.length)
  Res.assrt (RA.chunkFits x.re r.re ix)
  let s ← Res.get r.strides ix
  let d ← Res.get r.dims ix
  Res.need (s * d ≠ 0)
  let supsize := x.asize / (s * d)
  let jstride ← r.re.above ix
  let jxstride ← x.re.above ix
  let sx ← Res.get x.strides ix
  loop supsize m fun j m => loop n m fun a m => loop s m fun i m =>
    updC (· + ·) (· + ·) r x (j * jstride + a * s + i) (j * jxstride + (a + offs) * sx + i) m

/-- legacy/backendA/CtensorA.hpp:1036-1060 `chunk(ix,offs,n)`. -/
def chunk (junk : Nat → α) (q : Nat) (x : CA) (ix offs n : Nat) (m : Buf α) : Res (CA × Buf α) := do
  let dims ← gvSet x.dims ix n
  let (R, m) ← raw junk q dims m
  let s ← Res.get x.strides ix
  let d ← Res.get x.dims ix
  Res.need (s * d ≠ 0)
  let supsize := x.asize / (s * d)
  let jstride ← x.re.above ix
  let jxstride ← R.re.above ix
  let sx ← Res.get R.strides ix
  let m ← loop supsize m fun j m => loop n m fun a m => loop s m fun i m =>
    copyC R x (j * jxstride + a * sx + i) (j * jstride + (a + offs) * s + i) m
  .ok (R, m)

/-- legacy/backendA/CtensorA.hpp:1066-1088 `add_to_slice(ix,offs,x)`. -/
def addToSlice [Add α] (r : CA) (ix offs : Nat) (x : CA) (m : Buf α) : Res (Buf α) := do
  Res.assrt (r.dims.length = x.dims.length + 1)
  Res.assrt (RA.sliceFits r.re x.re ix)
  let subsize ← x.re.above ix
  Res.need (subsize ≠ 0)
  let supsize := x.asize / subsize
  let jstride ← r.re.above ix
  let s ← Res.get r.strides ix
  loop supsize m fun j m => loop subsize m fun i m => updC (· + ·) (· + ·) r x (j * jstride + offs * s + i) (j * subsize + i) m

/-- legacy/backendA/CtensorA.hpp:1091-1117 `add_to_slices(ix,v)`: only the sizes of the first tensor are checked. -/
def addToSlices [Add α] (r : CA) (ix : Nat) (v : List CA) (m : Buf α) : Res (Buf α) := do
  let d ← Res.get r.dims ix
  Res.assrt (v.length = d)
  let x ← Res.get v 0
  Res.assrt (r.dims.length = x.dims.length + 1)
  Res.assrt (RA.sliceFits r.re x.re ix)
  let subsize ← x.re.above ix
  Res.need (subsize ≠ 0)
  let supsize := x.asize / subsize
  let jstride ← r.re.above ix
  let s ← Res.get r.strides ix
  loop d m fun a m => loop supsize m fun j m => do
    let x ← Res.get v a
    loop subsize m fun i m => updC (· + ·) (· + ·) r x (j * jstride + a * s + i) (j * subsize + i) m

/-- legacy/backendA/CtensorA.hpp:1120-1142 `add_slice_of(x,ix,offs)`. -/
def addSliceOf [Add α] (r x : CA) (ix offs : Nat) (m : Buf α) : Res (Buf α) := do
  Res.assrt (x.dims.length = r.dims.length + 1)
  Res.assrt (RA.sliceFits x.re r.re ix)
  let subsize ← r.re.above ix
  Res.need (subsize ≠ 0)
  let supsize := r.asize / subsize
  let jstride ← x.re.above ix
  let s ← Res.get x.strides ix
  loop supsize m fun j m => loop subsize m fun i m => updC (· + ·) (· + ·) r x (j * subsize + i) (j * jstride + offs * s + i) m

/-- legacy/backendA/CtensorA.hpp:1145-1165 `slice(ix,offs)`. -/
def slice (junk : Nat → α) (q : Nat) (x : CA) (ix offs : Nat) (m : Buf α) : Res (CA × Buf α) := do
  let dims ← gvRemove x.dims ix
  let (R, m) ← raw junk q dims m
  let subsize ← R.re.above ix
  Res.need (subsize ≠ 0)
  let supsize := R.asize / subsize
  let jstride ← x.re.above ix
  let s ← Res.get x.strides ix
  let m ← loop supsize m fun j m => loop subsize m fun i m => copyC R x (j * subsize + i) (j * jstride + offs * s + i) m
  .ok (R, m)

/-! ### Elementwise operations -/

/-- legacy/backendA/CtensorA.hpp:1171-1182 `set_zero()`. -/
def setZero [Zero α] (x : CA) (m : Buf α) : Res (Buf α) := do
  let m ← RA.setZero x.re m
  RA.setZero x.im m

/-- legacy/backendA/CtensorA.hpp:1185-1192, 1207-1209 `inplace_times(c)`. -/
def inplaceTimes [Add α] [Sub α] [Mul α] (x : CA) (c : Cx α) (m : Buf α) : Res (Buf α) :=
  loop x.asize m fun i m => do
    let t ← getC (x.arr + i) (x.arrc + i) m
    setC (x.arr + i) (x.arrc + i) (c * t) m

/-- Both parts, one loop after the other, as in legacy/backendA/CtensorA.hpp:1499-1500. -/
def zipT (op op' : α → α → α) (r x : CA) (m : Buf α) : Res (Buf α) := do
  let m ← RA.zipT op r.re x.re m
  RA.zipT op' r.im x.im m

/-- legacy/backendA/CtensorA.hpp:1478-1485 `set(x)`. -/
def setT (r x : CA) (m : Buf α) : Res (Buf α) := do
  let m ← RA.setT r.re x.re m
  RA.setT r.im x.im m

/-- legacy/backendA/CtensorA.hpp:1494-1501 `add(x)`. -/
def add [Add α] (r x : CA) (m : Buf α) : Res (Buf α) := zipT (· + ·) (· + ·) r x m

/-- legacy/backendA/CtensorA.hpp:1511-1519, 1547-1551, 1608-1612 `add(x,c)`, `add_prod(c,x)` with a real number. -/
def addScaled [Add α] [Mul α] (r x : CA) (c : α) (m : Buf α) : Res (Buf α) := zipT (fun a b => a + b * c) (fun a b => a + b * c) r x m

/-- legacy/backendA/CtensorA.hpp:1565-1573 `add_conj(x)`. -/
def addConj [Add α] [Sub α] (r x : CA) (m : Buf α) : Res (Buf α) := zipT (· + ·) (· - ·) r x m

/-- legacy/backendA/CtensorA.hpp:1680-1688 `subtract(x)`. -/
def subtract [Sub α] (r x : CA) (m : Buf α) : Res (Buf α) := zipT (· - ·) (· - ·) r x m

/-- legacy/backendA/CtensorA.hpp:1527-1537: the two loops of `add(x,c)` with `c` the complex number `cr+ci*i`. -/
def addParts [Add α] [Sub α] [Mul α] (r x : CA) (cr ci : α) (m : Buf α) : Res (Buf α) := do
  Res.assrt (r.asize = x.asize)
  let m ← RA.zip3T (fun a b c => a + (b * cr - c * ci)) r.re x.re x.im m
  RA.zip3T (fun a b c => a + (b * cr + c * ci)) r.im x.im x.re m

/-- legacy/backendA/CtensorA.hpp:1527-1537, 1553-1563, 1614-1624 `add(x,c)`, `add_cconj(x,c)`, `add_prod(c,x)`, `add_prod_cconj(c,x)` (with the conjugate of `c`). -/
def addC [Add α] [Sub α] [Mul α] (r x : CA) (c : Cx α) (m : Buf α) : Res (Buf α) := addParts r x c.re c.im m

/-- legacy/backendA/CtensorA.hpp:1582-1592, 1602-1606, 1626-1630 `add_conj(x,c)`, `add_prod_c_times_conj(c,x)`: the sign of the imaginary part of `c` is changed. -/
def addConjC [Add α] [Sub α] [Neg α] [Mul α] (r x : CA) (c : Cx α) (m : Buf α) : Res (Buf α) := addParts r x c.re (-c.im) m

/-- legacy/backendA/CtensorA.hpp:1632-1635, 1642-1646 `add_divide(x,c)` with a real number. -/
def addDivide [Add α] [Mul α] [One α] [Div α] (r x : CA) (c : α) (m : Buf α) : Res (Buf α) := addScaled r x (1 / c) m

/-- legacy/backendA/CtensorA.hpp:1655-1669 `add_sum(v)`. -/
def addSum [Add α] (r : CA) (v : List CA) (m : Buf α) : Res (Buf α) :=
  Res.forM v m fun m o => do
    Res.assrt (o.asize = r.asize)
    loop r.asize m fun j m => updC (· + ·) (· + ·) r o j j m

/-- legacy/backendA/CtensorA.hpp:1694-1705 `add_plus(x,y)`. -/
def addPlus [Add α] (r x y : CA) (m : Buf α) : Res (Buf α) := do
  let m ← RA.addPlus r.re x.re y.re m
  RA.addPlus r.im x.im y.im m

/-- legacy/backendA/CtensorA.hpp:1715-1726 `add_minus(x,y)`. -/
def addMinus [Add α] [Sub α] (r x y : CA) (m : Buf α) : Res (Buf α) := do
  let m ← RA.addMinus r.re x.re y.re m
  RA.addMinus r.im x.im y.im m

/-- legacy/backendA/CtensorA.hpp:2191-2205 `add_ReLU(x)` (`alpha` = 0), `add_ReLU(x,alpha)`: each part by itself. -/
def addReLU [Add α] [Mul α] [Zero α] [One α] (pos neg : α → Bool) (alpha : α) (r x : CA) (m : Buf α) : Res (Buf α) := do
  let m ← RA.addReLU pos neg alpha r.re x.re m
  RA.addReLU pos neg alpha r.im x.im m

/-- legacy/backendA/CtensorA.hpp:2207-2216 `add_ReLU_back(g,x)`: both loops read `g.arr`. -/
def addReLUback [Add α] [Mul α] [Zero α] [One α] (pos : α → Bool) (r g x : CA) (m : Buf α) : Res (Buf α) := do
  let m ← RA.addReLUback pos 0 r.re g.re x.re m
  RA.addReLUback pos 0 r.im g.re x.im m

/-- legacy/backendA/CtensorA.hpp:2218-2227 `add_ReLU_back(g,x,alpha)`. -/
def addReLUbackAlpha [Add α] [Mul α] [Zero α] [One α] (pos : α → Bool) (alpha : α) (r g x : CA) (m : Buf α) : Res (Buf α) := do
  let m ← RA.addReLUback pos alpha r.re g.re x.re m
  RA.addReLUback pos alpha r.im g.im x.im m

/-- legacy/backendA/CtensorA.hpp:1343-1347 `plus(x)`. -/
def plus [Add α] (junk : Nat → α) (q : Nat) (x y : CA) (m : Buf α) : Res (CA × Buf α) := do
  let (R, m) ← copy junk q x m
  let m ← add R y m
  .ok (R, m)

/-- legacy/backendA/CtensorA.hpp:1219-1225, 1236-1242 `conj()`, `conjp()`. -/
def conj [Neg α] (junk : Nat → α) (q : Nat) (x : CA) (m : Buf α) : Res (CA × Buf α) := do
  let (R, m) ← raw junk q x.dims m
  let m ← stdCopy m x.arr x.asize R.arr
  let m ← loop x.asize m fun i m => do
    let b ← m.read (x.arrc + i)
    m.write (R.arrc + i) (-b)
  .ok (R, m)

/-! ### Numbers computed from tensors -/

/-- legacy/backendA/CtensorA.hpp:1424-1430 `norm2()`. -/
def norm2 [Zero α] [Add α] [Sub α] [Mul α] (x : CA) (m : Buf α) : Res α :=
  loop x.asize 0 fun i t => do
    let a ← m.read (x.arr + i)
    let b ← m.read (x.arrc + i)
    .ok (t + (a * a - b * b))

/-- legacy/backendA/CtensorA.hpp:1443-1456 `inp(x)`. -/
def inp [Zero α] [Add α] [Sub α] [Mul α] (r x : CA) (m : Buf α) : Res (Cx α) := do
  Res.assrt (r.asize = x.asize)
  if r.asize = 0 then .ok 0 else
    loop r.asize (0 : Cx α) fun i t => do
      let a ← getC (r.arr + i) (r.arrc + i) m
      let b ← getC (x.arr + i) (x.arrc + i) m
      .ok ⟨t.re + (a.re * b.re + a.im * b.im), t.im + (a.im * b.re - a.re * b.im)⟩

/-- legacy/backendA/CtensorA.hpp:1790-1813 `add_norm2_into(r)`, `add_norm2_ito(r)` (with `y` this tensor) and `add_inp_into(r,y)`. -/
def addInpInto [Zero α] [Add α] [Sub α] [Mul α] (x : CA) (r : Cx α) (y : CA) (m : Buf α) : Res (Cx α) :=
  if x.nbu = -1 then do
    let v ← inp x y m
    .ok (r + v)
  else .ok r

/-! ### Transposes and products -/

/-- legacy/backendA/CtensorA.hpp:1253-1263, 1275-1285 `transp(n)`, `transpp(n)` (`f` is the identity) and 1297-1307, 1320-1330 `herm(n)`, `hermp(n)`
(`f` is the change of sign). -/
def transpWith (f : α → α) (junk : Nat → α) (q : Nat) (x : CA) (n : Nat) (m : Buf α) : Res (CA × Buf α) := do
  let J ← x.re.combinedSize 0 n
  Res.need (J ≠ 0)
  let I := x.asize / J
  let (R, m) ← raw junk q [I, J] m
  let m ← loop I m fun i m => loop J m fun j m => do
    let a ← m.read (x.arr + (j * I + i))
    let m ← m.write (R.arr + (i * J + j)) a
    let b ← m.read (x.arrc + (j * I + i))
    m.write (R.arrc + (i * J + j)) (f b)
  .ok (R, m)

/-- legacy/backendA/CtensorA.hpp:1253-1263, 1275-1285. -/
def transp (junk : Nat → α) (q : Nat) (x : CA) (n : Nat) (m : Buf α) : Res (CA × Buf α) := transpWith id junk q x n m

/-- legacy/backendA/CtensorA.hpp:1297-1307, 1320-1330. -/
def herm [Neg α] (junk : Nat → α) (q : Nat) (x : CA) (n : Nat) (m : Buf α) : Res (CA × Buf α) := transpWith Neg.neg junk q x n m

/-- legacy/backendA/CtensorA.hpp:1737-1750 `add_transp(x,n)` (`op` is `+`) and 1761-1774 `add_herm(x,n)` (`op` is `-`). -/
def addTranspWith [Add α] (op : α → α → α) (r x : CA) (n : Nat) (m : Buf α) : Res (Buf α) := do
  Res.assrt (r.asize = x.asize)
  let J ← x.re.combinedSize 0 n
  Res.need (J ≠ 0)
  let I := x.asize / J
  loop I m fun i m => loop J m fun j m => updC (· + ·) op r x (i * J + j) (j * I + i) m

/-- legacy/backendA/CtensorA.hpp:1737-1750. -/
def addTransp [Add α] (r x : CA) (n : Nat) (m : Buf α) : Res (Buf α) := addTranspWith (· + ·) r x n m

/-- legacy/backendA/CtensorA.hpp:1761-1774. -/
def addHerm [Add α] [Sub α] (r x : CA) (n : Nat) (m : Buf α) : Res (Buf α) := addTranspWith (· - ·) r x n m

/-- legacy/backendA/CtensorA.hpp:2001-2004 (and 2074-2077, 2149-2152): `tr` and `ti` after one more product; the template argument `selector` says which factors are conjugated. -/
def selAcc [Add α] [Sub α] [Neg α] [Mul α] (sel : Nat) (t x y : Cx α) : Cx α :=
  match sel with
  | 0 => ⟨t.re + (x.re * y.re - x.im * y.im), t.im + (x.re * y.im + x.im * y.re)⟩
  | 1 => ⟨t.re + (x.re * y.re + x.im * y.im), t.im + (x.re * y.im - x.im * y.re)⟩
  | 2 => ⟨t.re + (x.re * y.re + x.im * y.im), t.im + (-x.re * y.im + x.im * y.re)⟩
  | 3 => ⟨t.re + (x.re * y.re - x.im * y.im), t.im - (x.re * y.im + x.im * y.re)⟩
  | _ => t

/-- The loops of legacy/backendA/CtensorA.hpp:1990-2009, 2063-2082, 2138-2157: `p i k` and `q k j` are the offsets in the factors. -/
def mprodLoop [Zero α] [Add α] [Sub α] [Neg α] [Mul α] (sel : Nat) (r x y : CA) (I J K : Nat) (p q : Nat → Nat → Nat) (m : Buf α) : Res (Buf α) :=
  loop I m fun i m => loop J m fun j m => do
    let t ← loop K (0 : Cx α) fun k t => do
      let a ← getC (x.arr + p i k) (x.arrc + p i k) m
      let b ← getC (y.arr + q k j) (y.arrc + q k j) m
      .ok (selAcc sel t a b)
    incC (r.arr + (i * J + j)) (r.arrc + (i * J + j)) t m

/-- legacy/backendA/CtensorA.hpp:1970-2010 `add_Mprod_AA<selector>(x,y,nx,ny)`. -/
def addMprodAA [Zero α] [Add α] [Sub α] [Neg α] [Mul α] (sel : Nat) (r x y : CA) (nx ny : Nat) (m : Buf α) : Res (Buf α) :=
  if x.asize = 0 ∨ y.asize = 0 then .ok m else do
    Res.assrt (nx ≤ x.dims.length)
    let K ← x.re.combinedSize (x.dims.length - nx) x.dims.length
    let K' ← y.re.combinedSize 0 ny
    Res.assrt (K' = K)
    let I ← x.re.combinedSize 0 (x.dims.length - nx)
    let J ← y.re.combinedSize ny y.dims.length
    Res.assrt (r.asize = I * J)
    if r.asize = 0 then .ok m else mprodLoop sel r x y I J K (fun i k => i * K + k) (fun k j => k * J + j) m

/-- legacy/backendA/CtensorA.hpp:2043-2084 `add_Mprod_AT<selector>(x,y,nx,ny)`. -/
def addMprodAT [Zero α] [Add α] [Sub α] [Neg α] [Mul α] (sel : Nat) (r x y : CA) (nx ny : Nat) (m : Buf α) : Res (Buf α) :=
  if x.asize = 0 ∨ y.asize = 0 then .ok m else do
    Res.assrt (nx ≤ x.dims.length)
    let K ← x.re.combinedSize (x.dims.length - nx) x.dims.length
    Res.assrt (ny ≤ y.dims.length)
    let K' ← y.re.combinedSize (y.dims.length - ny) y.dims.length
    Res.assrt (K' = K)
    let I ← x.re.combinedSize 0 (x.dims.length - nx)
    let J ← y.re.combinedSize 0 (y.dims.length - ny)
    Res.assrt (r.asize = I * J)
    if r.asize = 0 then .ok m else mprodLoop sel r x y I J K (fun i k => i * K + k) (fun k j => j * K + k) m

/-- legacy/backendA/CtensorA.hpp:2117-2159 `add_Mprod_TA<selector>(x,y,nx,ny)`. -/
def addMprodTA [Zero α] [Add α] [Sub α] [Neg α] [Mul α] (sel : Nat) (r x y : CA) (nx ny : Nat) (m : Buf α) : Res (Buf α) :=
  if x.asize = 0 ∨ y.asize = 0 then .ok m else do
    let K ← x.re.combinedSize 0 nx
    let K' ← y.re.combinedSize 0 ny
    Res.assrt (K' = K)
    let I ← x.re.combinedSize nx x.dims.length
    let J ← y.re.combinedSize ny y.dims.length
    Res.assrt (r.asize = I * J)
    if r.asize = 0 then .ok m else mprodLoop sel r x y I J K (fun i k => k * I + i) (fun k j => k * J + j) m

end CA

end Cnine
