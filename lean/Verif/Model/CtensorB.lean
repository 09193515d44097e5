import Verif.Model.RtensorArrayA
import Verif.Model.CView

/-!
# Model of legacy/backendB/CtensorB.hpp

Complex tensors whose numbers are listed in one array, each real part followed by its imaginary part, on the CPU (`dev=0`) except `conjG`.  The checks of sizes by
`CNINE_DIMS_SAME`, `CNINE_DIMS_EQ`, `CNINE_DIMS_EQ_TOTAL`, `CNINE_CHECK_SIZE`, `CNINE_NDIMS_IS_2`, `CNINE_DIMS_VALID` and of ranges by `CNINE_CHECK_RANGE` are
compiled out (include/Cnine_base.hpp:128-131); `assert` throws.  Memory and `new float[n]` are as in Verif/Model/RtensorA.lean.
-/

namespace Cnine

variable {α : Type}

/-- legacy/backendB/CtensorB.hpp:60-71, without `dev` and `arrg`. -/
structure CB where
  arr : Nat
  dims : List Nat
  strides : List Nat
  asize : Nat
  memsize : Nat
  coffs : Nat
  isView : Bool
deriving DecidableEq

namespace CB

/-! ### Constructors -/

/-- legacy/backendB/CtensorB.hpp:126-132, 184-186, with `arr` as the array; include/Gstrides.hpp:77-85 throws when there are no axes. -/
def noalloc (arr : Nat) (dims : List Nat) (isView : Bool) : Res CB :=
  match dims with
  | [] => .throw
  | d :: ds =>
    let strides := rmStridesFrom 2 (d :: ds)
    .ok ⟨arr, d :: ds, strides, strides.headD 0 * d / 2, strides.headD 0 * d, 1, isView⟩

/-- legacy/backendB/CtensorB.hpp:101-120, 134-135, 188-190, 218-220. -/
def raw (junk : Nat → α) (q : Nat) (dims : List Nat) (m : Buf α) : Res (CB × Buf α) := do
  let R ← noalloc q dims false
  .ok (R, allocRaw junk m q R.memsize)

/-- `for(i<memsize) arr[i]=f(i)` and `std::fill(arr,arr+memsize,v)`, as in legacy/backendB/CtensorB.hpp:139, 145, 162. -/
def fillMem (f : Nat → α) (x : CB) (m : Buf α) : Res (Buf α) := loop x.memsize m fun i m => m.write (x.arr + i) (f i)

/-- legacy/backendB/CtensorB.hpp:137-141, 143-147, 159-171: the whole array is filled; `f` is the constant 0, the constant 1, or random numbers. -/
def filled (f : Nat → α) (junk : Nat → α) (q : Nat) (dims : List Nat) (m : Buf α) : Res (CB × Buf α) := do
  let (R, m) ← raw junk q dims m
  let m ← fillMem f R m
  .ok (R, m)

/-- legacy/backendB/CtensorB.hpp:137-141, 192-198, 222-224, 246-248. -/
def zero [Zero α] (junk : Nat → α) (q : Nat) (dims : List Nat) (m : Buf α) : Res (CB × Buf α) := filled (fun _ => 0) junk q dims m

/-- legacy/backendB/CtensorB.hpp:143-147, 200-202: all of the array is filled with ones. -/
def ones [One α] (junk : Nat → α) (q : Nat) (dims : List Nat) (m : Buf α) : Res (CB × Buf α) := filled (fun _ => 1) junk q dims m

/-- legacy/backendB/CtensorB.hpp:149-157. -/
def identity [Zero α] [One α] (junk : Nat → α) (q : Nat) (dims : List Nat) (m : Buf α) : Res (CB × Buf α) := do
  let (R, m) ← zero junk q dims m
  let a ← Res.get R.dims 0
  let b ← Res.get R.dims 1
  Res.assrt (a = b)
  let s0 ← Res.get R.strides 0
  let s1 ← Res.get R.strides 1
  let m ← loop a m fun i m => m.write (R.arr + (s0 + s1) * i) 1
  .ok (R, m)

/-- legacy/backendB/CtensorB.hpp:173-178, 204-206. -/
def sequential [Zero α] [NatCast α] (junk : Nat → α) (q : Nat) (dims : List Nat) (m : Buf α) : Res (CB × Buf α) := do
  let (R, m) ← zero junk q dims m
  let s ← Res.get R.strides (R.dims.length - 1)
  let m ← loop R.asize m fun i m => m.write (R.arr + i * s) (i : α)
  .ok (R, m)

/-- legacy/backendB/CtensorB.hpp:258-283, 325-327 (and 285-291 with `dev=0`): a copy. -/
def copy (junk : Nat → α) (q : Nat) (x : CB) (m : Buf α) : Res (CB × Buf α) := do
  let m ← stdCopy (allocRaw junk m q x.memsize) x.arr x.memsize q
  .ok ({ x with arr := q, isView := false }, m)

/-- legacy/backendB/CtensorB.hpp:329-354 `operator=(x)`: `none` is an object without an array (line 76).  Line 332 is `delete arr` for an array that `new float[n]` made. -/
def assign (junk : Nat → α) (q : Nat) (r : Option CB) (x : CB) (m : Buf α) : Res (CB × Buf α) :=
  match r with
  | none => copy junk q x m
  | some r => if r.isView then copy junk q x m else .ub

/-- legacy/backendB/CtensorB.hpp:357-372 `operator=(CtensorB&&)`: line 360 is `delete arr` too. -/
def moveAssign (r : Option CB) (x : CB) : Res CB :=
  match r with
  | none => .ok x
  | some r => if r.isView then .ok x else .ub

/-! ### Views -/

/-- legacy/backendB/CtensorB.hpp:310-315, a view with the strides of `x`. -/
def viewOf (x : CB) : CB := { x with isView := true }

/-- legacy/backendB/CtensorB.hpp:378-393, 226-240: a view with the strides that `dims` gives. -/
def view (x : CB) : Res CB := noalloc x.arr x.dims true

/-- legacy/backendB/CtensorB.hpp:396-403. -/
def viewAsShape (x : CB) (dims : List Nat) : Res CB := noalloc x.arr dims true

/-- legacy/backendB/CtensorB.hpp:405-420; the loops of 408-410 and 413-414 are written as a product and as the rest of the list. -/
def fuseFirst (x : CB) (k : Nat) : Res CB := do
  Res.assrt (k < x.dims.length)
  noalloc x.arr ((x.dims.take k).foldl (· * ·) 1 :: x.dims.drop k) true

/-- legacy/backendB/CtensorB.hpp:949-976 `pick_dimension(ix)`. -/
def pick (x : CB) (ix : Nat) : Res CV2 := do
  let k := x.dims.length
  Res.assrt (2 ≤ k)
  let last ← Res.get x.strides (k - 1)
  if ix = 0 then do
    let d ← Res.get x.dims 0
    let s ← Res.get x.strides 0
    Res.need (last ≠ 0)
    .ok ⟨x.arr, x.arr + x.coffs, d, s / last, s, last⟩
  else if ix = k - 1 then do
    let d ← Res.get x.dims (k - 1)
    let s ← Res.get x.strides (k - 2)
    Res.need (d ≠ 0)
    .ok ⟨x.arr, x.arr + x.coffs, d, x.asize / d, last, s⟩
  else .throw

/-! ### Conversions -/

/-- legacy/backendB/CtensorB.hpp:445-458: the sizes of `im` are not checked. -/
def ofParts (junk : Nat → α) (q : Nat) (re im : RA) (m : Buf α) : Res (CB × Buf α) := do
  let (R, m) ← raw junk q re.dims m
  let m ← loop R.asize m fun i m => copyCell m (R.arr + 2 * i) (re.arr + i)
  let m ← loop R.asize m fun i m => copyCell m (R.arr + (2 * i + 1)) (im.arr + i)
  .ok (R, m)

/-- legacy/backendB/CtensorB.hpp:461-471 `real()`. -/
def realPart (junk : Nat → α) (q : Nat) (x : CB) (m : Buf α) : Res (RA × Buf α) := do
  let (R, m) ← RA.raw junk q x.dims m
  let m ← loop x.asize m fun i m => copyCell m (R.arr + i) (x.arr + 2 * i)
  .ok (R, m)

/-- legacy/backendB/CtensorB.hpp:474-484 `imag()`. -/
def imagPart (junk : Nat → α) (q : Nat) (x : CB) (m : Buf α) : Res (RA × Buf α) := do
  let (R, m) ← RA.raw junk q x.dims m
  let m ← loop x.asize m fun i m => copyCell m (R.arr + i) (x.arr + (2 * i + 1))
  .ok (R, m)

/-! ### Access -/

/-- legacy/backendB/CtensorB.hpp:982-985, 1020-1023 `operator()(ix)`, `get(ix)`. -/
def get (x : CB) (ix : List Nat) (m : Buf α) : Res (Cx α) := do
  let t ← RAA.atIx ix x.strides
  getC (x.arr + t) (x.arr + t + x.coffs) m

/-- legacy/backendB/CtensorB.hpp:1096-1100, 1138-1142 `set(ix,v)`, `set_value(ix,v)`. -/
def set (x : CB) (ix : List Nat) (v : Cx α) (m : Buf α) : Res (Buf α) := do
  let t ← RAA.atIx ix x.strides
  setC (x.arr + t) (x.arr + t + x.coffs) v m

/-- legacy/backendB/CtensorB.hpp:1180-1184 `inc(ix,v)`. -/
def inc [Add α] (x : CB) (ix : List Nat) (v : Cx α) (m : Buf α) : Res (Buf α) := do
  let t ← RAA.atIx ix x.strides
  incC (x.arr + t) (x.arr + t + x.coffs) v m

/-- `i0*strides[0]+i1*strides[1]`, legacy/backendB/CtensorB.hpp:995. -/
def offs2 (x : CB) (i j : Nat) : Res Nat := do
  let s0 ← Res.get x.strides 0
  let s1 ← Res.get x.strides 1
  .ok (i * s0 + j * s1)

/-- legacy/backendB/CtensorB.hpp:993-997. -/
def get2 (x : CB) (i j : Nat) (m : Buf α) : Res (Cx α) := do
  let t ← x.offs2 i j
  getC (x.arr + t) (x.arr + t + x.coffs) m

/-- legacy/backendB/CtensorB.hpp:1109-1114. -/
def set2 (x : CB) (i j : Nat) (v : Cx α) (m : Buf α) : Res (Buf α) := do
  let t ← x.offs2 i j
  setC (x.arr + t) (x.arr + t + x.coffs) v m

/-- legacy/backendB/CtensorB.hpp:1193-1198. -/
def inc2 [Add α] (x : CB) (i j : Nat) (v : Cx α) (m : Buf α) : Res (Buf α) := do
  let t ← x.offs2 i j
  incC (x.arr + t) (x.arr + t + x.coffs) v m

/-! ### Operations -/

/-- legacy/backendB/CtensorB.hpp:821-827 `set(x)`. -/
def setT (r x : CB) (m : Buf α) : Res (Buf α) := stdCopy m x.arr r.memsize r.arr

/-- legacy/backendB/CtensorB.hpp:834-837 `set_zero()`. -/
def setZero [Zero α] (x : CB) (m : Buf α) : Res (Buf α) := fillMem (fun _ => 0) x m

/-- legacy/backendB/CtensorB.hpp:1480-1487 `conj()`. -/
def conj [Neg α] (junk : Nat → α) (q : Nat) (x : CB) (m : Buf α) : Res (CB × Buf α) := do
  let (R, m) ← raw junk q x.dims m
  let s ← Res.get x.strides (x.strides.length - 1)
  let m ← loop x.asize m fun i m => copyCell m (R.arr + i * s) (x.arr + i * s)
  let m ← loop x.asize m fun i m => do
    let b ← m.read (x.arr + (i * s + x.coffs))
    m.write (R.arr + (i * s + x.coffs)) (-b)
  .ok (R, m)

/-- legacy/backendB/CtensorB.hpp:1488-1493 `conj()` on the GPU, in the memory of the GPU: `cublasSscal(n,-1,p,2)` multiplies the `n` numbers `p[0]`, `p[2]`, … -/
def conjG [Neg α] (junk : Nat → α) (q : Nat) (x : CB) (m : Buf α) : Res (CB × Buf α) := do
  let (R, m) ← copy junk q x m
  let m ← loop x.asize m fun i m => do
    let b ← m.read (R.arr + i * 2)
    m.write (R.arr + i * 2) (-b)
  .ok (R, m)

/-- The end of a local tensor, `delete[] arr`, legacy/backendB/CtensorB.hpp:78-79. -/
def free (x : CB) (m : Buf α) : Buf α := fun c => if x.arr ≤ c ∧ c < x.arr + x.memsize then none else m c

/-- legacy/backendB/CtensorB.hpp:1497-1504, 1527 `transp()`, with include/Gdims.hpp:213-216 for two axes: the matrix `R` at `q` is filled, and a copy of this tensor, at `q'`, is
returned. -/
def transp (junk : Nat → α) (q q' : Nat) (x : CB) (m : Buf α) : Res (CB × Buf α) := do
  let a ← Res.get x.dims 0
  let b ← Res.get x.dims 1
  let (R, m) ← raw junk q [b, a] m
  let m ← loop a m fun i m => loop b m fun j m => do
    let v ← x.get2 i j m
    R.set2 j i v m
  let (y, m) ← copy junk q' x m
  .ok (y, R.free m)

/-- `for(i<memsize) arr[i]=op(arr[i],x.arr[i])`, as in legacy/backendB/CtensorB.hpp:1613, 1630, 1727, 1859, 1866. -/
def zipMem (op : α → α → α) (r x : CB) (m : Buf α) : Res (Buf α) := loop r.memsize m fun i m => updCell op m (r.arr + i) (x.arr + i)

/-- legacy/backendB/CtensorB.hpp:1608-1615, 1622-1624 `add(x)`. -/
def add [Add α] (r x : CB) (m : Buf α) : Res (Buf α) := do
  Res.assrt (r.asize = x.asize)
  zipMem (· + ·) r x m

/-- legacy/backendB/CtensorB.hpp:1626-1632, 1710-1712 `add(x,c)` with a real number. -/
def addScaled [Add α] [Mul α] (r x : CB) (c : α) (m : Buf α) : Res (Buf α) := zipMem (fun a b => a + b * c) r x m

/-- legacy/backendB/CtensorB.hpp:1639-1650, 1714-1720 `add(x,c)` with a complex number: the two loops are commented out. -/
def addC (r x : CB) (_c : Cx α) (m : Buf α) : Res (Buf α) := do
  Res.assrt (r.asize = x.asize)
  .ok m

/-- legacy/backendB/CtensorB.hpp:1722-1729, 1736-1738 `subtract(x)`. -/
def subtract [Sub α] (r x : CB) (m : Buf α) : Res (Buf α) := do
  Res.assrt (r.asize = x.asize)
  zipMem (· - ·) r x m

/-- Two loops, over the real parts and over the imaginary parts, as in legacy/backendB/CtensorB.hpp:1666-1669, 1682-1685. -/
def zipParts (op op' : α → α → α) (r x : CB) (m : Buf α) : Res (Buf α) := do
  let m ← loop r.asize m fun i m => updCell op m (r.arr + i * 2) (x.arr + i * 2)
  loop r.asize m fun i m => updCell op' m (r.arr + (i * 2 + 1)) (x.arr + (i * 2 + 1))

/-- legacy/backendB/CtensorB.hpp:1661-1671 `add_conj(x)`. -/
def addConj [Add α] [Sub α] (r x : CB) (m : Buf α) : Res (Buf α) := zipParts (· + ·) (· - ·) r x m

/-- legacy/backendB/CtensorB.hpp:1677-1687 `add_conj(x,v)` with a real number. -/
def addConjS [Add α] [Sub α] [Mul α] (r x : CB) (v : α) (m : Buf α) : Res (Buf α) := zipParts (fun a b => a + v * b) (fun a b => a - v * b) r x m

/-- legacy/backendB/CtensorB.hpp:1693-1704 `add_conj(x,v)` with a complex number. -/
def addConjC [Add α] [Sub α] [Neg α] [Mul α] (r x : CB) (v : Cx α) (m : Buf α) : Res (Buf α) :=
  loop r.asize m fun i m => do
    let a ← getC (x.arr + 2 * i) (x.arr + (2 * i + 1)) m
    incC (r.arr + 2 * i) (r.arr + (2 * i + 1)) (a.conj * v) m

/-- legacy/backendB/CtensorB.hpp:1535-1545 `plus(y)`, `operator+`. -/
def plus [Add α] (junk : Nat → α) (q : Nat) (x y : CB) (m : Buf α) : Res (CB × Buf α) := do
  let (R, m) ← copy junk q x m
  let m ← R.add y m
  .ok (R, m)

/-- legacy/backendB/CtensorB.hpp:1547-1551 `operator-`. -/
def minus [Sub α] (junk : Nat → α) (q : Nat) (x y : CB) (m : Buf α) : Res (CB × Buf α) := do
  let (R, m) ← copy junk q x m
  let m ← R.subtract y m
  .ok (R, m)

/-- legacy/backendB/CtensorB.hpp:1553-1566 `operator/`: `cdiv` is the division of complex numbers. -/
def div [Zero α] [Div α] (cdiv : Cx α → Cx α → Cx α) (junk : Nat → α) (q : Nat) (x y : CB) (m : Buf α) : Res (CB × Buf α) := do
  Res.assrt (y.memsize = x.memsize)
  let (R, m) ← zero junk q x.dims m
  let m ← loop x.asize m fun i m => do
    let a ← getC (x.arr + i * 2) (x.arr + (i * 2 + x.coffs)) m
    let b ← getC (y.arr + i * 2) (y.arr + (i * 2 + x.coffs)) m
    setC (R.arr + i * 2) (R.arr + (i * 2 + x.coffs)) (cdiv a b) m
  let m ← loop x.memsize m fun i m => do
    let a ← m.read (x.arr + i)
    let b ← m.read (y.arr + i)
    m.write (R.arr + i) (a / b)
  .ok (R, m)

/-- legacy/backendB/CtensorB.hpp:1855-1867 `add_ReLU(x)` (`alpha` = 0), `add_ReLU(x,alpha)`. -/
def addReLU [Add α] [Mul α] [Zero α] [One α] (pos neg : α → Bool) (alpha : α) (r x : CB) (m : Buf α) : Res (Buf α) := do
  Res.assrt (x.asize = r.asize)
  zipMem (fun a b => a + ((if pos b then 1 else 0) + alpha * (if neg b then 1 else 0)) * b) r x m

/-! ### Numbers computed from tensors -/

/-- legacy/backendB/CtensorB.hpp:1572-1581 `inp(y)`. -/
def inp [Zero α] [Add α] [Sub α] [Mul α] (x y : CB) (m : Buf α) : Res (Cx α) :=
  csum x.asize (fun i m => do
    let a ← getC (x.arr + 2 * i) (x.arr + (2 * i + 1)) m
    let b ← getC (y.arr + 2 * i) (y.arr + (2 * i + 1)) m
    .ok (a * b)) m

/-- legacy/backendB/CtensorB.hpp:1583-1590 `norm2()`. -/
def norm2 [Zero α] [Add α] [Mul α] (x : CB) (m : Buf α) : Res α :=
  loop x.memsize 0 fun i t => do
    let a ← m.read (x.arr + i)
    .ok (t + a * a)

/-- legacy/backendB/CtensorB.hpp:1592-1602 `diff2(y)`. -/
def diff2 [Zero α] [Add α] [Sub α] [Mul α] (x y : CB) (m : Buf α) : Res α :=
  loop x.memsize 0 fun i t => do
    let a ← m.read (x.arr + i)
    let b ← m.read (y.arr + i)
    .ok (t + (a - b) * (a - b))

/-- legacy/backendB/CtensorB.hpp:1783-1785 `add_inp_into(r,y)`. -/
def addInpInto [Zero α] [Add α] [Sub α] [Mul α] (x : CB) (r : Cx α) (y : CB) (m : Buf α) : Res (Cx α) := do
  let v ← x.inp y m
  .ok (r + v)

/-- legacy/backendB/CtensorB.hpp:1779-1781 `add_norm2_into(r)`. -/
def addNorm2Into [Zero α] [Add α] [Sub α] [Mul α] (x : CB) (r : Cx α) (m : Buf α) : Res (Cx α) := do
  let v ← x.inp x m
  .ok (r + v)

/-! ### Products -/

/-- legacy/backendB/CtensorB.hpp:1791-1793, 1800-1823 `add_Mprod_AA<selector>(x,y)`: `selector` is not used. -/
def addMprod [Zero α] [Add α] [Sub α] [Mul α] (_selector : Nat) (r x y : CB) (m : Buf α) : Res (Buf α) := do
  let n0 ← Res.get r.dims 0
  let n1 ← Res.get r.dims 1
  let I ← Res.get x.dims 1
  let x0 ← Res.get x.dims 0
  Res.assrt (x0 = n0)
  let y1 ← Res.get y.dims 1
  Res.assrt (y1 = n1)
  let y0 ← Res.get y.dims 0
  Res.assrt (y0 = I)
  loop n0 m fun a m => loop n1 m fun b m => do
    let t ← csum I (fun i m => do
      let u ← x.get2 a i m
      let v ← y.get2 i b m
      .ok (u * v)) m
    r.inc2 a b t m

/-! ### Tensors of ATen -/

/-- What legacy/backendB/CtensorB.hpp:638-709 uses of an `at::Tensor` of complex numbers in the memory of the CPU: the array and, in complex numbers, sizes and strides. -/
structure AT where
  data : Nat
  dims : List Nat
  strides : List Nat
deriving DecidableEq

/-- legacy/backendB/CtensorB.hpp:564-571 `has_same_strides_as(T)`. -/
def sameStrides (x : CB) (T : AT) : Bool := decide (T.strides = x.strides.map (· / 2))

/-- include/Gstrides.hpp:218-227 `offs(j,source)`. -/
def gsOffs : List Nat → List Nat → Nat → Res Nat
  | [], [], _ => .ok 0
  | s :: S, u :: U, j => do
    Res.need (u ≠ 0)
    let t ← gsOffs S U (j - j / u * u)
    .ok (s * (j / u) + t)
  | _, _, _ => .throw

/-- legacy/backendB/CtensorB.hpp:666-667: `i` goes in steps of two, and the place in the array is `i*2`. -/
def gatherAten (x : CB) (T : AT) (m : Buf α) : Res (Buf α) :=
  loop ((x.memsize + 1) / 2) m fun j m => do
    let t ← gsOffs T.strides x.strides (2 * j)
    let v ← getC (T.data + 2 * t) (T.data + (2 * t + 1)) m
    setC (x.arr + 2 * j * 2) (x.arr + (2 * j * 2 + 1)) v m

/-- legacy/backendB/CtensorB.hpp:638-673: when the strides are not those of `dims` a first array at `q` is filled; then an array at `q'` gets the numbers in the order of the memory. -/
def ofAten (junk : Nat → α) (q q' : Nat) (T : AT) (m : Buf α) : Res (CB × Buf α) := do
  let x ← noalloc q' T.dims false
  let m ← if x.sameStrides T then .ok m else ({ x with arr := q } : CB).gatherAten T (allocRaw junk m q x.memsize)
  let m ← stdCopy (allocRaw junk m q' x.memsize) T.data (2 * x.asize) q'
  .ok (x, m)

/-- legacy/backendB/CtensorB.hpp:682-709 `view(T)`. -/
def viewAten (T : AT) : Res CB := do
  let x ← noalloc T.data T.dims true
  let s ← Res.get T.strides 0
  .ok { x with strides := T.strides.map (2 * ·), memsize := 2 * s * x.dims.headD 0 }

/-- legacy/backendB/CtensorB.hpp:741-752 `torch()`: a new tensor of ATen at `q`, filled with `memsize` numbers. -/
def torch [Zero α] (q : Nat) (x : CB) (m : Buf α) : Res (AT × Buf α) := do
  Res.assrt (x.coffs = 1)
  let m ← stdCopy (allocRaw (fun _ => 0) m q (2 * Cnine.asize x.dims)) x.arr x.memsize q
  .ok (⟨q, x.dims, rmStrides x.dims⟩, m)

end CB

end Cnine
