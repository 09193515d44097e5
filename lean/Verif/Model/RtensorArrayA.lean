import Verif.Model.CublasA
import Verif.Model.Memory

/-!
# Model of legacy/backendA/RtensorArrayA.hpp

An array of tensors of the old backend: one `RtensorA` whose first axes number the tensors ("cells"), each cell padded to a multiple of 32 numbers.  As in Verif/Model/RtensorA.lean;
on the CPU, except for the functions whose names begin with `g`.  The member `k` is kept, because constructors that copy do not set it.
-/

namespace Cnine

variable {α : Type}

/-- legacy/backendA/RtensorArrayA.hpp:55-68, without `ak` (always `adims.size()`).  `base` is the `RtensorA`; `k` is `none` when nothing was put into it. -/
structure RAA where
  base : RA
  k : Option Nat
  nbu : Int
  adims : List Nat
  cdims : List Nat
  astrides : List Nat
  cstrides : List Nat
  aasize : Nat
  asize : Nat
  cellstride : Nat
deriving DecidableEq

namespace RAA

/-! ### Constructors -/

/-- legacy/backendA/RtensorArrayA.hpp:102-108, 120-126: the members, from the strides of the `RtensorA`. -/
def ofBase (R : RA) (adims cdims : List Nat) : Res RAA := do
  let s ← Res.get R.strides adims.length
  let d ← Res.get cdims 0
  let c := GT.roundup (s * d) 32
  .ok ⟨R, some cdims.length, -1, adims, cdims, (R.strides.take adims.length).map (· / c), (R.strides.drop adims.length).take cdims.length, R.asize / c, s * d, c⟩

/-- legacy/backendA/RtensorArrayA.hpp:93-109, 137-138. -/
def raw (junk : Nat → α) (q : Nat) (adims cdims : List Nat) (m : Buf α) : Res (RAA × Buf α) := do
  let (R, m) ← RA.array junk q adims cdims m
  let X ← ofBase R adims cdims
  .ok (X, m)

/-- legacy/backendA/RtensorArrayA.hpp:148-152, 160-165: zeros, in the padding too (160-165 says that the identity is not implemented and makes zeros). -/
def zeros [Zero α] (junk : Nat → α) (q : Nat) (adims cdims : List Nat) (m : Buf α) : Res (RAA × Buf α) := do
  let (X, m) ← raw junk q adims cdims m
  let m ← RA.fillArr (fun _ => 0) X.base X.base.memsize m
  .ok (X, m)

/-- legacy/backendA/RtensorArrayA.hpp:174-178 ones (`f i` is 1), 212-217 random numbers `f`: the padding is filled too. -/
def filled (f : Nat → α) (junk : Nat → α) (q : Nat) (adims cdims : List Nat) (m : Buf α) : Res (RAA × Buf α) := do
  let (X, m) ← raw junk q adims cdims m
  let m ← RA.fillArr f X.base X.base.cst m
  .ok (X, m)

/-- legacy/backendA/RtensorArrayA.hpp:186-192. -/
def sequential [Zero α] [NatCast α] (junk : Nat → α) (q : Nat) (adims cdims : List Nat) (m : Buf α) : Res (RAA × Buf α) := do
  let (X, m) ← zeros junk q adims cdims m
  let m ← loop X.aasize m fun j m => loop X.asize m fun i m => m.write (X.base.arr + (i + j * X.cellstride)) ((i + j * X.asize : Nat) : α)
  .ok (X, m)

/-- legacy/backendA/RtensorArrayA.hpp:576-580 `set_cell(i,x)`. -/
def setCellAt (X : RAA) (i : Nat) (x : RA) (m : Buf α) : Res (Buf α) := stdCopy m x.arr X.asize (X.base.arr + i * X.cellstride)

/-- legacy/backendA/RtensorArrayA.hpp:587-592 `add_to_cell(i,x)`. -/
def addToCellAt [Add α] (X : RAA) (i : Nat) (x : RA) (m : Buf α) : Res (Buf α) := stdAdd (· + ·) m x.arr X.asize (X.base.arr + i * X.cellstride)

/-- legacy/backendA/RtensorArrayA.hpp:227-233, every cell a copy of `x`. -/
def repeated (junk : Nat → α) (q : Nat) (adims : List Nat) (x : RA) (m : Buf α) : Res (RAA × Buf α) := do
  let (X, m) ← raw junk q adims x.dims m
  let m ← loop X.aasize m fun i m => X.setCellAt i x m
  .ok (X, m)

/-- legacy/backendA/RtensorArrayA.hpp:236-240, an array from one tensor.  `Gdims(1)` is a list of one zero (include/Gdims.hpp:64-65). -/
def single (junk : Nat → α) (q : Nat) (x : RA) (m : Buf α) : Res (RAA × Buf α) := do
  let (X, m) ← raw junk q [0] x.dims m
  let m ← X.setCellAt 0 x m
  .ok (X, m)

/-- legacy/backendA/RtensorArrayA.hpp:288-292, 335-345 (on the CPU): the copies; `k` is not set. -/
def copy (junk : Nat → α) (q : Nat) (X : RAA) (m : Buf α) : Res (RAA × Buf α) := do
  let (R, m) ← RA.copy junk q X.base m
  .ok ({ X with base := R, k := none }, m)

/-- legacy/backendA/RtensorArrayA.hpp:435-438, a view; `k` is not set. -/
def viewOf (X : RAA) : RAA := { X with base := X.base.viewOf, k := none }

/-! ### Cells -/

/-- `aix(strides)`, include/Gindex.hpp:116-122. -/
def atIx (aix strides : List Nat) : Res Nat := do
  Res.assrt (aix.length ≤ strides.length)
  loop aix.length 0 fun i t => do
    let j ← Res.get aix i
    let s ← Res.get strides i
    .ok (t + j * s)

/-- legacy/backendA/RtensorArrayA.hpp:601-614, 652-658 `cell(i)`, `cell_view(i)`, `cellp(i)`. -/
def cell (X : RAA) (i : Nat) : Res RA :=
  match X.k with
  | none => .ub
  | some _ => .ok ⟨X.base.arr + i * X.cellstride, X.cdims, X.cstrides, X.asize, 2 * X.asize, X.asize, X.nbu, true⟩

/-- legacy/backendA/RtensorArrayA.hpp:616-629 `cell(i,j)`, `cell_view(i,j)`. -/
def cell2 (X : RAA) (i j : Nat) : Res RA := do
  let s ← Res.get X.astrides 0
  let t ← Res.get X.astrides 1
  X.cell (i * s + j * t)

/-- legacy/backendA/RtensorArrayA.hpp:631-649, 660-669 `cell(aix)`, `cell_view(aix)`, `cellp(aix)`. -/
def cellIx (X : RAA) (aix : List Nat) : Res RA := do
  let i ← atIx aix X.astrides
  X.cell i

/-- legacy/backendA/RtensorArrayA.hpp:525-532 `copy_cell_into(R,aix)`. -/
def copyCellInto (X : RAA) (r : RA) (aix : List Nat) (m : Buf α) : Res (Buf α) := do
  let t ← atIx aix X.base.strides
  stdCopy m (X.base.arr + t) X.asize r.arr

/-- legacy/backendA/RtensorArrayA.hpp:536-544 `add_cell_into(R,aix)`. -/
def addCellInto [Add α] (X : RAA) (r : RA) (aix : List Nat) (m : Buf α) : Res (Buf α) := do
  let t ← atIx aix X.base.strides
  loop X.asize m fun i m => updCell (· + ·) m (r.arr + i) (X.base.arr + t + i)

/-- legacy/backendA/RtensorArrayA.hpp:551-557 `set_cell(aix,x)`. -/
def setCell (X : RAA) (aix : List Nat) (x : RA) (m : Buf α) : Res (Buf α) := do
  let t ← atIx aix X.base.strides
  stdCopy m x.arr X.asize (X.base.arr + t)

/-- legacy/backendA/RtensorArrayA.hpp:563-569 `add_to_cell(aix,x)`. -/
def addToCell [Add α] (X : RAA) (aix : List Nat) (x : RA) (m : Buf α) : Res (Buf α) := do
  let t ← atIx aix X.base.strides
  stdAdd (· + ·) m x.arr X.asize (X.base.arr + t)

/-- legacy/backendA/RtensorArrayA.hpp:505-512 `cell_combined_size(a,b)`. -/
def cellCombinedSize (X : RAA) (a b : Nat) : Res Nat :=
  match X.k with
  | none => .ub
  | some k => do
    Res.assrt (b ≤ k)
    Res.assrt (a ≤ b)
    if 0 < b then do
      let s ← Res.get X.cstrides (b - 1)
      if s = 0 then .ok 0
      else if 0 < a then do
        let t ← Res.get X.cstrides (a - 1)
        .ok (t / s)
      else .ok (X.asize / s)
    else .ok 1

/-- legacy/backendA/RtensorArrayA.hpp:692-711 `change_arrayshape(adims)`: the second loop runs to `ak`, over `k` strides. -/
def changeArrayshape (X : RAA) (adims : List Nat) : Res RAA := do
  Res.assrt (Cnine.asize adims = X.aasize)
  match X.k with
  | none => .ub
  | some k => do
    Res.need (adims.length ≤ k)
    let low ← Res.forM (List.range adims.length) ([] : List Nat) fun l i => do
      let s ← Res.get X.base.strides (X.adims.length + i)
      .ok (l ++ [s])
    let astrides := rmStrides adims
    .ok { X with
      adims := adims, astrides := astrides
      base := { X.base with dims := adims ++ X.cdims, strides := astrides.map (· * X.cellstride) ++ low ++ List.replicate (k - adims.length) 0 } }

/-- legacy/backendA/RtensorArrayA.hpp:713-716 `as_arrayshape(adims)`. -/
def asArrayshape (X : RAA) (adims : List Nat) : Res RAA := X.viewOf.changeArrayshape adims

/-! ### Where `nbu` is put before the sizes -/

/-- A tensor or array made from `cdims.prepend(nbu)`, with `nbu` an `int`: its sizes may be negative. -/
structure Odd where
  cdims : List Int
  asize : Int
  memsize : Int
deriving DecidableEq

/-- legacy/backendA/RtensorA.hpp:343-347 `RtensorA(dims,nbu,fill)` with 128-143: sizes and the number of floats that are allocated. -/
def oddTensor (cdims : List Nat) (nbu : Int) : Odd :=
  let asize := (cdims.prod : Int) * nbu
  ⟨nbu :: cdims.map Int.ofNat, asize, max (roundup asize 32) 1⟩

/-- legacy/backendA/RtensorArrayA.hpp:518-523 `get_cell(aix)`: the new tensor is at `q`. -/
def getCell (junk : Nat → α) (q : Nat) (X : RAA) (aix : List Nat) (m : Buf α) : Res (Odd × Buf α) := do
  let R := oddTensor X.cdims X.nbu
  let t ← atIx aix X.base.strides
  let m ← stdCopy (allocRaw junk m q R.memsize.toNat) (X.base.arr + t) X.asize q
  .ok (R, m)

/-- An array made from `cdims.prepend(nbu)`. -/
structure OddArr where
  cdims : List Int
  asize : Int
  cellstride : Int
  aasize : Int
  memsize : Int
deriving DecidableEq

/-- legacy/backendA/RtensorArrayA.hpp:140-141, 441-455, 458-461 with 93-109 and legacy/backendA/RtensorA.hpp:177-201: the sizes of an array with cells `cdims.prepend(nbu)`.  Undefined when
`cellstride` is 0, for it divides. -/
def oddArray (adims cdims : List Nat) (nbu : Int) : Res OddArr := do
  Res.need (adims ≠ [])
  let asize := (cdims.prod : Int) * nbu
  let c := roundup asize 32
  Res.need (c ≠ 0)
  let total := c * (adims.prod : Int)
  .ok ⟨nbu :: cdims.map Int.ofNat, asize, c, Int.tdiv total c, max (roundup total 32) 1⟩

/-- legacy/backendA/RtensorArrayA.hpp:255-282, an array from a function; without `nbu` (280-282) it is -1. -/
def ofFn (f : Nat → Nat → α) (junk : Nat → α) (q : Nat) (adims cdims : List Nat) (nbu : Int) (m : Buf α) : Res (OddArr × Buf α) := do
  let X ← oddArray adims cdims nbu
  let m ← loop X.aasize.toNat (allocRaw junk m q X.memsize.toNat) fun i m => loop X.asize.toNat m fun j m => m.write ((q : Int) + (i * X.cellstride + j)).toNat (f i j)
  .ok (X, m)

/-- legacy/backendA/RtensorArrayA.hpp:974-976 `broaden(ix,n)`: the array that is made for the result. -/
def broadenInto (X : RAA) (ix n : Nat) : Res OddArr := do
  Res.assrt (ix ≤ X.adims.length)
  oddArray (X.adims.insertIdx ix n) X.cdims X.base.nbu

/-- legacy/backendA/RtensorArrayA.hpp:981-983 `reduce(ix)`: the array that is made for the result. -/
def reduceInto (X : RAA) (ix : Nat) : Res OddArr := do
  Res.assrt (ix < X.adims.length)
  oddArray (X.adims.eraseIdx ix) X.cdims X.base.nbu

/-! ### Broadcasting and reductions -/

/-- legacy/backendA/RtensorArrayA.hpp:988-995 `broadcast_copy(x)`. -/
def broadcastCopy (X : RAA) (x : RA) (m : Buf α) : Res (Buf α) := do
  Res.assrt (x.dims = X.cdims)
  loop X.aasize m fun i m => stdCopy m x.arr x.asize (X.base.arr + i * X.cellstride)

/-- legacy/backendA/RtensorArrayA.hpp:1052-1062 `broadcast_add(x)` (`op` is `+`) and 1065-1075 `broadcast_subtract(x)` (`op` is `-`). -/
def broadcastUpd (op : α → α → α) (X : RAA) (x : RA) (m : Buf α) : Res (Buf α) := do
  Res.assrt (X.nbu = x.nbu)
  loop X.aasize m fun i m => stdAdd op m x.arr x.asize (X.base.arr + i * X.cellstride)

/-- The checks of legacy/backendA/RtensorArrayA.hpp:1014-1016, 1081-1083: the sizes of `X` before and after `ix` are those of `x`. -/
def fits (A E : List Nat) (ix : Nat) : Bool := decide (E.length + 1 = A.length) && (A.eraseIdx ix == E)

/-- legacy/backendA/RtensorArrayA.hpp:1011-1032 `broadcast_copy(ix,x)` (`cp` is `std::copy`) and 1078-1100 `broadcast_add(ix,x)` (`cp` is `stdadd`). -/
def broadcastIx (cp : Buf α → Nat → Nat → Nat → Res (Buf α)) (X : RAA) (ix : Nat) (x : RAA) (m : Buf α) : Res (Buf α) := do
  Res.assrt (X.nbu = x.nbu)
  Res.assrt (fits X.adims x.adims ix)
  let n ← Res.get X.adims ix
  if ix = 0 then do
    let s ← Res.get X.base.strides 0
    loop n m fun i m => cp m x.base.arr x.base.cst (X.base.arr + i * s)
  else do
    let s ← Res.get X.base.strides (ix - 1)
    let t ← Res.get X.base.strides ix
    let u ← Res.get x.base.strides (ix - 1)
    Res.need (s ≠ 0)
    loop (X.base.cst / s) m fun a m => loop n m fun i m => cp m (x.base.arr + a * u) u (X.base.arr + a * s + i * t)

/-- The checks of legacy/backendA/RtensorArrayA.hpp:1123-1125; the last size of `x` is not looked at. -/
def reduces (A E : List Nat) (ix : Nat) : Bool :=
  decide (A.length + 1 = E.length ∨ E.length = 1) && ((List.range ix).all fun i => A[i]? == E[i]?) && ((List.range A.length).all fun i => decide (i ≤ ix) || A[i - 1]? == E[i]?)

/-- legacy/backendA/RtensorArrayA.hpp:1120-1143 `add_reduce(x,ix)`; sizes past the end must not be read. -/
def addReduce [Add α] (X x : RAA) (ix : Nat) (m : Buf α) : Res (Buf α) := do
  Res.assrt (X.nbu = x.nbu)
  Res.need (ix ≤ X.adims.length ∧ X.adims.length ≤ x.adims.length)
  Res.assrt (reduces X.adims x.adims ix)
  let n ← Res.get x.adims ix
  if ix = 0 then do
    let s ← Res.get x.base.strides 0
    loop n m fun i m => stdAdd (· + ·) m (x.base.arr + i * s) s X.base.arr
  else do
    let s ← Res.get x.base.strides (ix - 1)
    let t ← Res.get x.base.strides ix
    let u ← Res.get X.base.strides (ix - 1)
    Res.need (s ≠ 0)
    loop (x.base.cst / s) m fun a m => loop n m fun i m => stdAdd (· + ·) m (x.base.arr + a * s + i * t) t (X.base.arr + a * u)

/-- `while(e<=aasize){e*=2;s++;}`, legacy/backendA/RtensorArrayA.hpp:999-1001. -/
def powers (n e s : Nat) (fuel : Nat) : Nat :=
  match fuel with
  | 0 => s
  | fuel + 1 => if e ≤ n then powers n (e * 2) (s + 1) fuel else s

/-- legacy/backendA/RtensorArrayA.hpp:1003-1007, the copies that double: `e` cells are there. -/
def doubling (X : RAA) : Nat → Nat → Buf α → Res (Nat × Buf α)
  | 0, e, m => .ok (e, m)
  | s + 1, e, m => do
    let m ← stdCopy m X.base.arr (e * X.cellstride) (X.base.arr + e * X.cellstride)
    doubling X s (e * 2) m

/-- legacy/backendA/RtensorArrayA.hpp:988-1009 `broadcast_copy(x)` on the GPU, `m` its memory. -/
def gBroadcastCopy (X : RAA) (x : RA) (m : Buf α) : Res (Buf α) := do
  Res.assrt (x.dims = X.cdims)
  if X.aasize = 0 then .ok m
  else do
    Res.assrt (x.asize = X.asize)
    let s := powers X.aasize 1 0 (X.aasize + 1)
    let m ← stdCopy m x.arr x.asize X.base.arr
    let (e, m) ← doubling X (s - 1) 1 m
    stdCopy m X.base.arr ((X.aasize - e) * X.cellstride) (X.base.arr + e * X.cellstride)

/-! ### One number for each cell -/

/-- legacy/backendA/RtensorArrayA.hpp:890-895 `scatter(op,C)`. -/
def scatter (op : RA → α → Buf α → Res (Buf α)) (X : RAA) (C : RA) (m : Buf α) : Res (Buf α) :=
  loop X.aasize m fun i m => do
    let t ← X.cell i
    let c ← m.read (C.arr + i)
    op t c m

/-- legacy/backendA/RtensorArrayA.hpp:1178-1192 `inplace_scatter_times(C)`. -/
def inplaceScatterTimes [Mul α] (X : RAA) (C : RA) (m : Buf α) : Res (Buf α) := do
  Res.assrt (X.adims = C.dims)
  X.scatter (fun t c m => t.inplaceTimes c m) C m

/-- legacy/backendA/RtensorArrayA.hpp:1194-1209 `inplace_scatter_div(C)`: the operation multiplies (legacy/tensor_array/cell_ops/RtensorA_add_times_c_cop.hpp:84-86). -/
def inplaceScatterDiv [Mul α] (X : RAA) (C : RA) (m : Buf α) : Res (Buf α) := do
  Res.assrt (X.adims = C.dims)
  X.scatter (fun t c m => t.inplaceTimes c m) C m

/-- legacy/backendA/RtensorArrayA.hpp:897-902 `scatter(op,x,C)` as called in 1166-1176 `scatter_add_times_c(x,C)` and `scatter_add_div_c(x,C)`: the sizes of the array are compared with
all sizes of `x`.  `h c` is `c` or `1/c` (legacy/tensor_array/cell_ops/RtensorA_add_times_c_cop.hpp:32-34, 49-51). -/
def scatterAdd [Add α] [Mul α] (h : α → α) (X x : RAA) (C : RA) (m : Buf α) : Res (Buf α) := do
  Res.assrt (X.adims = x.base.dims)
  loop X.aasize m fun i m => do
    let t ← X.cell i
    let y ← x.cell i
    let c ← m.read (C.arr + i)
    RA.addScaled t y (h c) m

/-! ### Sums and products -/

/-- legacy/backendA/RtensorArrayA.hpp:1215-1219 `plus(y)`. -/
def plus [Add α] (junk : Nat → α) (q : Nat) (X y : RAA) (m : Buf α) : Res (RAA × Buf α) := do
  let (R, m) ← copy junk q X m
  let m ← RA.add R.base y.base m
  .ok (R, m)

/-- legacy/backendA/RtensorArrayA.hpp:1221-1225 `plus(y)` (`op` is `+`) and 1227-1231 `minus(y)` (`op` is `-`) with one tensor. -/
def plusOne (op : α → α → α) (junk : Nat → α) (q : Nat) (X : RAA) (y : RA) (m : Buf α) : Res (RAA × Buf α) := do
  let (R, m) ← copy junk q X m
  let m ← R.broadcastUpd op y m
  .ok (R, m)

/-- legacy/backendA/RtensorArrayA.hpp:1237-1245 `add_Mprod_AA(x,y,nx,ny)`, `add_Mprod_AT(x,y,nx,ny)` with include/Cmaps.hpp:216-225; `op` is the product of two cells, the code of
legacy/tensor_array/cell_ops/RtensorA_add_Mprod_cop.hpp:40-74, 93-129, which is that of `RtensorA`. -/
def cellwise (op : RA → RA → RA → Buf α → Res (Buf α)) (X x y : RAA) (m : Buf α) : Res (Buf α) := do
  Res.assrt (x.aasize = X.aasize)
  Res.assrt (y.aasize = X.aasize)
  loop X.aasize m fun i m => do
    let t ← X.cell i
    let a ← x.cell i
    let b ← y.cell i
    op t a b m

/-- legacy/backendA/RtensorArrayA.hpp:1237-1240. -/
def addMprodAA [Zero α] [Add α] [Mul α] (X x y : RAA) (nx ny : Nat) (m : Buf α) : Res (Buf α) := cellwise (fun t a b m => RA.addMprodAA t a b nx ny m) X x y m

/-- legacy/backendA/RtensorArrayA.hpp:1242-1245. -/
def addMprodAT [Zero α] [Add α] [Mul α] (X x y : RAA) (nx ny : Nat) (m : Buf α) : Res (Buf α) := cellwise (fun t a b m => RA.addMprodAT t a b nx ny m) X x y m

/-- legacy/backendA/RtensorArrayA.hpp:1251-1254 `add_broadcast(y)`, 1256-1259 `subtract_broadcast(y)`, with include/Cmaps.hpp:142-152: an array is made from `y`, which must have one
cell. -/
def addBroadcast (op : RA → RA → Buf α → Res (Buf α)) (junk : Nat → α) (q : Nat) (X : RAA) (y : RA) (m : Buf α) : Res (Buf α) := do
  let (Y, m) ← single junk q y m
  Res.assrt (Y.aasize = 1)
  let b ← Y.cell 0
  loop X.aasize m fun i m => do
    let t ← X.cell i
    op t b m

/-- The loops of legacy/backendA/RtensorArrayA.hpp:1280-1294, 1333-1347 for cell `a`. -/
def prodCell [Zero α] [Add α] [Mul α] (X x : RAA) (I J K a : Nat) (q : Nat → Nat → Nat) (m : Buf α) : Res (Buf α) :=
  loop I m fun i m => loop J m fun j m => do
    let t ← loop K (0 : α) fun p t => do
      let v ← m.read (x.base.arr + a * x.cellstride + (i * K + p))
      let w ← m.read (q p j)
      .ok (t + v * w)
    incCell m (X.base.arr + a * X.cellstride + (i * J + j)) t

/-- legacy/backendA/RtensorArrayA.hpp:1261-1296 `broadcast_add_Mprod_AA(x,y,nx,ny)`. -/
def broadcastMprodAA [Zero α] [Add α] [Mul α] (X x : RAA) (y : RA) (nx ny : Nat) (m : Buf α) : Res (Buf α) :=
  if x.asize = 0 ∨ y.asize = 0 then .ok m else do
    let K ← x.cellCombinedSize (x.cdims.length - nx) x.cdims.length
    let K' ← y.combinedSize 0 ny
    Res.assrt (K' = K)
    Res.assrt (nx ≤ x.cdims.length)
    let I ← x.cellCombinedSize 0 (x.cdims.length - nx)
    let J ← y.combinedSize ny y.dims.length
    Res.assrt (X.asize = I * J)
    if X.asize = 0 then .ok m else
      loop X.aasize m fun a m => prodCell X x I J K a (fun p j => y.arr + (p * J + j)) m

/-- legacy/backendA/RtensorArrayA.hpp:1312-1351 `broadcast_add_Mprod_AT(x,y,nx,ny)`. -/
def broadcastMprodAT [Zero α] [Add α] [Mul α] (X x : RAA) (y : RA) (nx ny : Nat) (m : Buf α) : Res (Buf α) :=
  if x.asize = 0 ∨ y.asize = 0 then .ok m else do
    let K ← x.cellCombinedSize (x.cdims.length - nx) x.cdims.length
    let K' ← y.combinedSize (y.dims.length - ny) y.dims.length
    Res.assrt (K' = K)
    Res.assrt (nx ≤ x.cdims.length)
    let I ← x.cellCombinedSize 0 (x.cdims.length - nx)
    Res.assrt (ny ≤ y.dims.length)
    let J ← y.combinedSize 0 (y.dims.length - ny)
    Res.assrt (X.asize = I * J)
    if X.asize = 0 then .ok m else
      loop X.aasize m fun a m => prodCell X x I J K a (fun p j => y.arr + (p + j * K)) m

/-- legacy/backendA/RtensorArrayA.hpp:1261-1271, 1298-1306 `broadcast_add_Mprod_AA(x,y,nx,ny)` on the GPU: one product. -/
def gBroadcastMprodAA [Zero α] [One α] [Add α] [Mul α] (X x : RAA) (y : RA) (nx ny : Nat) (m : Buf α) : Res (Buf α) :=
  if x.asize = 0 ∨ y.asize = 0 then .ok m else do
    let K ← x.cellCombinedSize (x.cdims.length - nx) x.cdims.length
    let K' ← y.combinedSize 0 ny
    Res.assrt (K' = K)
    Res.assrt (nx ≤ x.cdims.length)
    let I ← x.cellCombinedSize 0 (x.cdims.length - nx)
    let J ← y.combinedSize ny y.dims.length
    Res.assrt (X.asize = I * J)
    if X.asize = 0 then .ok m else sgemm 1 ⟨.N, .N, J, I, K, y.arr, J, 0, x.base.arr, K, 0, X.base.arr, J, 0, 1⟩ m

end RAA

end Cnine
