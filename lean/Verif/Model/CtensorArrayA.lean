import Verif.Model.RtensorArrayA
import Verif.Model.CtensorA

/-!
# Model of legacy/backendA/CtensorArrayA.hpp

An array of complex tensors of the old backend, on the CPU (except for the functions whose names begin with `g`).  As in Verif/Model/CtensorA.lean there are two arrays of numbers, and
`re` and `im` are the arrays of real and of imaginary parts: functions of CtensorArrayA.hpp whose text is that of RtensorArrayA.hpp are modelled by the functions of RtensorArrayA.lean on
`re` and `im`.  The constructor in lines 133-135, which passes on the member `adims` before it has a value, is not modelled; nor are the functions on graphs (747-860).
-/

namespace Cnine

variable {α : Type}

/-- legacy/backendA/CtensorArrayA.hpp:52-70: the members, `re.base.arr` is `arr`, and `re.base.memsize` is the room of one part. -/
structure CAA where
  re : RAA
  arrc : Nat
  memsize : Nat
deriving DecidableEq

namespace CAA

/-- The imaginary parts: the members of legacy/backendA/CtensorArrayA.hpp:52-70 with `arrc`. -/
def im (X : CAA) : RAA := { X.re with base := { X.re.base with arr := X.arrc } }

/-! ### Constructors -/

/-- legacy/backendA/CtensorArrayA.hpp:93-109, 137-138 with legacy/backendA/CtensorA.hpp:130-157, whose strides are those of `RtensorA`: the second part follows the first. -/
def raw (junk : Nat → α) (q : Nat) (adims cdims : List Nat) (m : Buf α) : Res (CAA × Buf α) := do
  let (R, _) ← RA.array junk q adims cdims m
  let X ← RAA.ofBase R adims cdims
  .ok (⟨X, q + R.cst, 2 * R.cst⟩, allocRaw junk m q (2 * R.cst))

/-- legacy/backendA/CtensorArrayA.hpp:148-152. -/
def zeros [Zero α] (junk : Nat → α) (q : Nat) (adims cdims : List Nat) (m : Buf α) : Res (CAA × Buf α) := do
  let (X, m) ← raw junk q adims cdims m
  let m ← RA.fillArr (fun _ => 0) X.re.base X.memsize m
  .ok (X, m)

/-- legacy/backendA/CtensorArrayA.hpp:160-165 ones (`f i` is 1 and `g i` is 0), 202-208 random numbers `f` and `g`. -/
def filled (f g : Nat → α) (junk : Nat → α) (q : Nat) (adims cdims : List Nat) (m : Buf α) : Res (CAA × Buf α) := do
  let (X, m) ← raw junk q adims cdims m
  let m ← RA.fillArr f X.re.base X.re.base.cst m
  let m ← RA.fillArr g X.im.base X.re.base.cst m
  .ok (X, m)

/-- legacy/backendA/CtensorArrayA.hpp:174-180: the real parts are numbered. -/
def sequential [Zero α] [NatCast α] (junk : Nat → α) (q : Nat) (adims cdims : List Nat) (m : Buf α) : Res (CAA × Buf α) := do
  let (X, m) ← zeros junk q adims cdims m
  let m ← loop X.re.aasize m fun j m => loop X.re.asize m fun i m => m.write (X.re.base.arr + (i + j * X.re.cellstride)) ((i + j * X.re.asize : Nat) : α)
  .ok (X, m)

/-- legacy/backendA/CtensorArrayA.hpp:601-606 `set_cell(i,x)`. -/
def setCellAt (X : CAA) (i : Nat) (x : CA) (m : Buf α) : Res (Buf α) := do
  let m ← X.re.setCellAt i x.re m
  X.im.setCellAt i x.im m

/-- legacy/backendA/CtensorArrayA.hpp:614-619 `add_to_cell(i,x)`. -/
def addToCellAt [Add α] (X : CAA) (i : Nat) (x : CA) (m : Buf α) : Res (Buf α) := do
  let m ← X.re.addToCellAt i x.re m
  X.im.addToCellAt i x.im m

/-- legacy/backendA/CtensorArrayA.hpp:219-225, every cell a copy of `x`. -/
def repeated (junk : Nat → α) (q : Nat) (adims : List Nat) (x : CA) (m : Buf α) : Res (CAA × Buf α) := do
  let (X, m) ← raw junk q adims x.dims m
  let m ← loop X.re.aasize m fun i m => X.setCellAt i x m
  .ok (X, m)

/-- legacy/backendA/CtensorArrayA.hpp:228-232, an array from one tensor.  `Gdims(1)` is a list of one zero (include/Gdims.hpp:64-65). -/
def single (junk : Nat → α) (q : Nat) (x : CA) (m : Buf α) : Res (CAA × Buf α) := do
  let (X, m) ← raw junk q [0] x.dims m
  let m ← X.setCellAt 0 x m
  .ok (X, m)

/-- legacy/backendA/CtensorArrayA.hpp:282-286 with legacy/backendA/CtensorA.hpp:185-199, 358-370: a copy; `k` is not set. -/
def copy (junk : Nat → α) (q : Nat) (X : CAA) (m : Buf α) : Res (CAA × Buf α) := do
  let R : CAA := ⟨{ X.re with base := { X.re.base with arr := q, nbu := -1, isView := false }, k := none }, q + X.re.base.cst, X.memsize⟩
  let m ← stdCopy (allocRaw junk m q X.memsize) X.re.base.arr X.re.base.asize R.re.base.arr
  let m ← stdCopy m X.arrc X.re.base.asize R.arrc
  .ok (R, m)

/-! ### Cells -/

/-- legacy/backendA/CtensorArrayA.hpp:630-643, 685-691 `cell(i)`, `cell_view(i)`, `cellp(i)`, with legacy/backendA/CtensorA.hpp:208-213. -/
def cell (X : CAA) (i : Nat) : Res CA :=
  match X.re.k with
  | none => .ub
  | some _ => .ok ⟨X.re.base.arr + i * X.re.cellstride, X.arrc + i * X.re.cellstride, X.re.cdims, X.re.cstrides, X.re.asize, 2 * X.re.asize, X.re.asize, X.re.nbu, true⟩

/-- legacy/backendA/CtensorArrayA.hpp:645-661 `cell(i,j)`, `cell_view(i,j)`. -/
def cell2 (X : CAA) (i j : Nat) : Res CA := do
  let s ← Res.get X.re.astrides 0
  let t ← Res.get X.re.astrides 1
  X.cell (i * s + j * t)

/-- legacy/backendA/CtensorArrayA.hpp:663-682, 693-701 `cell(aix)`, `cell_view(aix)`, `cellp(aix)`. -/
def cellIx (X : CAA) (aix : List Nat) : Res CA := do
  let i ← RAA.atIx aix X.re.astrides
  X.cell i

/-- legacy/backendA/CtensorArrayA.hpp:523-531 `copy_cell_into(R,aix)`. -/
def copyCellInto (X : CAA) (r : CA) (aix : List Nat) (m : Buf α) : Res (Buf α) := do
  let m ← X.re.copyCellInto r.re aix m
  X.im.copyCellInto r.im aix m

/-- legacy/backendA/CtensorArrayA.hpp:536-546 `add_cell_to(R,aix)`, 554-564 `add_cell_into(R,aix)`. -/
def addCellInto [Add α] (X : CAA) (r : CA) (aix : List Nat) (m : Buf α) : Res (Buf α) := do
  let m ← X.re.addCellInto r.re aix m
  X.im.addCellInto r.im aix m

/-- legacy/backendA/CtensorArrayA.hpp:572-579 `set_cell(aix,x)`. -/
def setCell (X : CAA) (aix : List Nat) (x : CA) (m : Buf α) : Res (Buf α) := do
  let m ← X.re.setCell aix x.re m
  X.im.setCell aix x.im m

/-- legacy/backendA/CtensorArrayA.hpp:586-593 `add_to_cell(aix,x)`. -/
def addToCell [Add α] (X : CAA) (aix : List Nat) (x : CA) (m : Buf α) : Res (Buf α) := do
  let m ← X.re.addToCell aix x.re m
  X.im.addToCell aix x.im m

/-! ### Broadcasting and reductions -/

/-- legacy/backendA/CtensorArrayA.hpp:1020-1028 `broadcast_copy(x)`. -/
def broadcastCopy (X : CAA) (x : CA) (m : Buf α) : Res (Buf α) := do
  Res.assrt (x.dims = X.re.cdims)
  loop X.re.aasize m fun i m => do
    let m ← stdCopy m x.arr x.asize (X.re.base.arr + i * X.re.cellstride)
    stdCopy m x.arrc x.asize (X.arrc + i * X.re.cellstride)

/-- legacy/backendA/CtensorArrayA.hpp:1087-1097 `broadcast_add(x)` (`op` is `+`) and 1099-1109 `broadcast_subtract(x)` (`op` is `-`). -/
def broadcastUpd (op : α → α → α) (X : CAA) (x : CA) (m : Buf α) : Res (Buf α) := do
  Res.assrt (X.re.nbu = x.nbu)
  Res.assrt (x.dims = X.re.cdims)
  loop X.re.aasize m fun i m => do
    let m ← stdAdd op m x.arr x.asize (X.re.base.arr + i * X.re.cellstride)
    stdAdd op m x.arrc x.asize (X.arrc + i * X.re.cellstride)

/-- legacy/backendA/CtensorArrayA.hpp:1047-1071 `broadcast_copy(ix,x)` (`cp` is `std::copy`) and 1111-1135 `broadcast_add(ix,x)` (`cp` is `stdadd`). -/
def broadcastIx (cp : Buf α → Nat → Nat → Nat → Res (Buf α)) (X : CAA) (ix : Nat) (x : CAA) (m : Buf α) : Res (Buf α) := do
  Res.assrt (X.re.nbu = x.re.nbu)
  Res.assrt (RAA.fits X.re.adims x.re.adims ix)
  let n ← Res.get X.re.adims ix
  if ix = 0 then do
    let s ← Res.get X.re.base.strides 0
    loop n m fun i m => do
      let m ← cp m x.re.base.arr x.re.base.cst (X.re.base.arr + i * s)
      cp m x.arrc x.re.base.cst (X.arrc + i * s)
  else do
    let s ← Res.get X.re.base.strides (ix - 1)
    let t ← Res.get X.re.base.strides ix
    let u ← Res.get x.re.base.strides (ix - 1)
    Res.need (s ≠ 0)
    loop (X.re.base.cst / s) m fun a m => loop n m fun i m => do
      let m ← cp m (x.re.base.arr + a * u) u (X.re.base.arr + a * s + i * t)
      cp m (x.arrc + a * u) u (X.arrc + a * s + i * t)

/-- legacy/backendA/CtensorArrayA.hpp:1152-1177 `add_reduce(x,ix)`; sizes past the end must not be read. -/
def addReduce [Add α] (X x : CAA) (ix : Nat) (m : Buf α) : Res (Buf α) := do
  Res.assrt (X.re.nbu = x.re.nbu)
  Res.need (ix ≤ X.re.adims.length ∧ X.re.adims.length ≤ x.re.adims.length)
  Res.assrt (RAA.reduces X.re.adims x.re.adims ix)
  let n ← Res.get x.re.adims ix
  if ix = 0 then do
    let s ← Res.get x.re.base.strides 0
    loop n m fun i m => do
      let m ← stdAdd (· + ·) m (x.re.base.arr + i * s) s X.re.base.arr
      stdAdd (· + ·) m (x.arrc + i * s) s X.arrc
  else do
    let s ← Res.get x.re.base.strides (ix - 1)
    let t ← Res.get x.re.base.strides ix
    let u ← Res.get X.re.base.strides (ix - 1)
    Res.need (s ≠ 0)
    loop (x.re.base.cst / s) m fun a m => loop n m fun i m => do
      let m ← stdAdd (· + ·) m (x.re.base.arr + a * s + i * t) t (X.re.base.arr + a * u)
      stdAdd (· + ·) m (x.arrc + a * s + i * t) t (X.arrc + a * u)

/-! ### One number for each cell -/

/-- legacy/backendA/CtensorArrayA.hpp:922-927 `scatter(op,C)`, with `get_value_at`, legacy/backendA/CtensorA.hpp:754-757. -/
def scatter (op : CA → Cx α → Buf α → Res (Buf α)) (X : CAA) (C : CA) (m : Buf α) : Res (Buf α) :=
  loop X.re.aasize m fun i m => do
    let t ← X.cell i
    let c ← getC (C.arr + i) (C.arrc + i) m
    op t c m

/-- legacy/backendA/CtensorArrayA.hpp:1210-1224 `inplace_scatter_times(C)`, legacy/tensor_array/cell_ops/CtensorA_add_times_c_cop.hpp:66-68. -/
def inplaceScatterTimes [Add α] [Sub α] [Mul α] (X : CAA) (C : CA) (m : Buf α) : Res (Buf α) := do
  Res.assrt (X.re.adims = C.dims)
  X.scatter (fun t c m => t.inplaceTimes c m) C m

/-- legacy/backendA/CtensorArrayA.hpp:1226-1241 `inplace_scatter_div(C)`: the operation multiplies (legacy/tensor_array/cell_ops/CtensorA_add_times_c_cop.hpp:83-85). -/
def inplaceScatterDiv [Add α] [Sub α] [Mul α] (X : CAA) (C : CA) (m : Buf α) : Res (Buf α) := do
  Res.assrt (X.re.adims = C.dims)
  X.scatter (fun t c m => t.inplaceTimes c m) C m

/-- legacy/backendA/CtensorArrayA.hpp:929-934 `scatter(op,x,C)` as called in 1198-1208 `scatter_add_times_c(x,C)` and `scatter_add_div_c(x,C)`: the sizes of the array are compared with
all sizes of `x`.  `h c` is `c` or `1/c` (legacy/tensor_array/cell_ops/CtensorA_add_times_c_cop.hpp:32-34, 49-51). -/
def scatterAdd [Add α] [Sub α] [Mul α] (h : Cx α → Cx α) (X x : CAA) (C : CA) (m : Buf α) : Res (Buf α) := do
  Res.assrt (X.re.adims = x.re.base.dims)
  loop X.re.aasize m fun i m => do
    let t ← X.cell i
    let y ← x.cell i
    let c ← getC (C.arr + i) (C.arrc + i) m
    CA.addC t y (h c) m

/-! ### Conjugates, sums and products -/

/-- legacy/backendA/CtensorArrayA.hpp:1247-1253 `conj()`: the cells of the result get all sizes, `dims`. -/
def conj [Neg α] (junk : Nat → α) (q : Nat) (X : CAA) (m : Buf α) : Res (CAA × Buf α) := do
  let (R, m) ← raw junk q X.re.adims X.re.base.dims m
  let m ← stdCopy m X.re.base.arr X.re.base.cst R.re.base.arr
  let m ← loop X.re.base.cst m fun i m => do
    let t ← m.read (X.arrc + i)
    m.write (R.arrc + i) (-t)
  .ok (R, m)

/-- legacy/backendA/CtensorArrayA.hpp:1254-1259 `conj()` on the GPU, `m` its memory: `cublasSaxpy` adds the numbers of one cell. -/
def gConj [Zero α] [Add α] [Sub α] (junk : Nat → α) (q : Nat) (X : CAA) (m : Buf α) : Res (CAA × Buf α) := do
  let (R, m) ← zeros junk q X.re.adims X.re.base.dims m
  let m ← stdAdd (· + ·) m X.re.base.arr X.re.asize R.re.base.arr
  let m ← stdAdd (· - ·) m X.arrc X.re.asize R.arrc
  .ok (R, m)

/-- legacy/backendA/CtensorArrayA.hpp:1274-1278 `plus(y)` with legacy/backendA/CtensorA.hpp:1494-1502. -/
def plus [Add α] (junk : Nat → α) (q : Nat) (X y : CAA) (m : Buf α) : Res (CAA × Buf α) := do
  let (R, m) ← copy junk q X m
  let m ← RA.add R.re.base y.re.base m
  let m ← RA.add R.im.base y.im.base m
  .ok (R, m)

/-- legacy/backendA/CtensorArrayA.hpp:1280-1284 `plus(y)` (`op` is `+`) and 1286-1290 `minus(y)` (`op` is `-`) with one tensor. -/
def plusOne (op : α → α → α) (junk : Nat → α) (q : Nat) (X : CAA) (y : CA) (m : Buf α) : Res (CAA × Buf α) := do
  let (R, m) ← copy junk q X m
  let m ← R.broadcastUpd op y m
  .ok (R, m)

/-- legacy/backendA/CtensorArrayA.hpp:1296-1306 `add_Mprod_AA<selector>(x,y,nx,ny)`, `add_Mprod_AT<selector>(x,y,nx,ny)` with include/Cmaps.hpp:216-225; `op` is the product of two cells, the
code of legacy/tensor_array/cell_ops/CtensorA_add_Mprod_cop.hpp:41-82, 102-146, which is that of `CtensorA`. -/
def cellwise (op : CA → CA → CA → Buf α → Res (Buf α)) (X x y : CAA) (m : Buf α) : Res (Buf α) := do
  Res.assrt (x.re.aasize = X.re.aasize)
  Res.assrt (y.re.aasize = X.re.aasize)
  loop X.re.aasize m fun i m => do
    let t ← X.cell i
    let a ← x.cell i
    let b ← y.cell i
    op t a b m

/-- legacy/backendA/CtensorArrayA.hpp:1312-1315 `add_broadcast(y)`, 1317-1320 `subtract_broadcast(y)`, with include/Cmaps.hpp:142-152: an array is made from `y`, which must have one
cell. -/
def addBroadcast (op : CA → CA → Buf α → Res (Buf α)) (junk : Nat → α) (q : Nat) (X : CAA) (y : CA) (m : Buf α) : Res (Buf α) := do
  let (Y, m) ← single junk q y m
  Res.assrt (Y.re.aasize = 1)
  let b ← Y.cell 0
  loop X.re.aasize m fun i m => do
    let t ← X.cell i
    op t b m

/-- `t` after one more product, legacy/backendA/CtensorArrayA.hpp:1352-1355, 1422-1425, with utility/PretendComplex.hpp:33-35, 64-66. -/
def accSel [Add α] [Sub α] [Neg α] [Mul α] (sel : Nat) (t x y : Cx α) : Cx α :=
  match sel with
  | 0 => t + x * y
  | 1 => t + ⟨x.re, -x.im⟩ * y
  | 2 => t + x * ⟨y.re, -y.im⟩
  | 3 => t + ⟨x.re, -x.im⟩ * ⟨y.re, -y.im⟩
  | _ => t

/-- The loops of legacy/backendA/CtensorArrayA.hpp:1342-1359, 1412-1429 for cell `a`. -/
def prodCell [Zero α] [Add α] [Sub α] [Neg α] [Mul α] (sel : Nat) (X x : CAA) (y : CA) (I J K a : Nat) (q : Nat → Nat → Nat) (m : Buf α) : Res (Buf α) :=
  loop I m fun i m => loop J m fun j m => do
    let t ← loop K (0 : Cx α) fun p t => do
      let v ← getC (x.re.base.arr + a * x.re.cellstride + (i * K + p)) (x.arrc + a * x.re.cellstride + (i * K + p)) m
      let w ← getC (y.arr + q p j) (y.arrc + q p j) m
      .ok (accSel sel t v w)
    incC (X.re.base.arr + a * X.re.cellstride + (i * J + j)) (X.arrc + a * X.re.cellstride + (i * J + j)) t m

/-- legacy/backendA/CtensorArrayA.hpp:1322-1361 `broadcast_add_Mprod_AA<selector>(x,y,nx,ny)`. -/
def broadcastMprodAA [Zero α] [Add α] [Sub α] [Neg α] [Mul α] (sel : Nat) (X x : CAA) (y : CA) (nx ny : Nat) (m : Buf α) : Res (Buf α) :=
  if x.re.asize = 0 ∨ y.asize = 0 then .ok m else do
    let K ← x.re.cellCombinedSize (x.re.cdims.length - nx) x.re.cdims.length
    let K' ← y.re.combinedSize 0 ny
    Res.assrt (K' = K)
    Res.assrt (nx ≤ x.re.cdims.length)
    let I ← x.re.cellCombinedSize 0 (x.re.cdims.length - nx)
    let J ← y.re.combinedSize ny y.dims.length
    Res.assrt (X.re.asize = I * J)
    if X.re.asize = 0 then .ok m else
      loop X.re.aasize m fun a m => prodCell sel X x y I J K a (fun p j => p * J + j) m

/-- legacy/backendA/CtensorArrayA.hpp:1390-1433 `broadcast_add_Mprod_AT<selector>(x,y,nx,ny)`. -/
def broadcastMprodAT [Zero α] [Add α] [Sub α] [Neg α] [Mul α] (sel : Nat) (X x : CAA) (y : CA) (nx ny : Nat) (m : Buf α) : Res (Buf α) :=
  if x.re.asize = 0 ∨ y.asize = 0 then .ok m else do
    let K ← x.re.cellCombinedSize (x.re.cdims.length - nx) x.re.cdims.length
    let K' ← y.re.combinedSize (y.dims.length - ny) y.dims.length
    Res.assrt (K' = K)
    Res.assrt (nx ≤ x.re.cdims.length)
    let I ← x.re.cellCombinedSize 0 (x.re.cdims.length - nx)
    Res.assrt (ny ≤ y.dims.length)
    let J ← y.re.combinedSize 0 (y.dims.length - ny)
    Res.assrt (X.re.asize = I * J)
    if X.re.asize = 0 then .ok m else
      loop X.re.aasize m fun a m => prodCell sel X x y I J K a (fun p j => p + j * K) m

end CAA

end Cnine
