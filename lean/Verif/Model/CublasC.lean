import Verif.Model.CublasA
import Verif.Model.CtensorA

/-!
# Complex tensors of the old backend on the GPU, where they call cuBLAS

The branches of legacy/backendA/CtensorA.hpp for `dev==1` that call cuBLAS.  The routines follow their published contract (Verif/Model/Cublas.lean, Verif/Model/CublasA.lean);
`m` is the memory of the GPU, `arr` and `arrc` stand for `arrg` and `arrgc`.  Checks of devices are left out: all tensors are on the GPU.
-/

namespace Cnine

variable {α : Type}

namespace CA

/-- legacy/backendA/CtensorA.hpp:1494-1508 `add(x)` (both numbers 1), 1511-1524 `add(x,c)` (both `c`), 1565-1580 `add_conj(x)` (1 and -1) and 1680-1692 `subtract(x)`
(both -1) on the GPU. -/
def gAddTwice [Add α] [Mul α] (a b : α) (r x : CA) (m : Buf α) : Res (Buf α) := do
  Res.assrt (r.asize = x.asize)
  let m ← saxpy r.asize a x.arr 1 r.arr 1 m
  saxpy r.asize b x.arrc 1 r.arrc 1 m

/-- legacy/backendA/CtensorA.hpp:1494-1508 `add(x)` on the GPU. -/
def gAdd [One α] [Add α] [Mul α] (r x : CA) (m : Buf α) : Res (Buf α) := gAddTwice 1 1 r x m

/-- legacy/backendA/CtensorA.hpp:1511-1524 `add(x,c)` with a real number, on the GPU. -/
def gAddScaled [Add α] [Mul α] (r x : CA) (c : α) (m : Buf α) : Res (Buf α) := gAddTwice c c r x m

/-- legacy/backendA/CtensorA.hpp:1565-1580 `add_conj(x)` on the GPU. -/
def gAddConj [One α] [Neg α] [Add α] [Mul α] (r x : CA) (m : Buf α) : Res (Buf α) := gAddTwice 1 (-1) r x m

/-- legacy/backendA/CtensorA.hpp:1680-1692 `subtract(x)` on the GPU. -/
def gSubtract [One α] [Neg α] [Add α] [Mul α] (r x : CA) (m : Buf α) : Res (Buf α) := gAddTwice (-1) (-1) r x m

/-- legacy/backendA/CtensorA.hpp:1527-1545 `add(x,c)` with a complex number, on the GPU. -/
def gAddC [Neg α] [Add α] [Mul α] (r x : CA) (c : Cx α) (m : Buf α) : Res (Buf α) := do
  Res.assrt (r.asize = x.asize)
  let m ← saxpy r.asize c.re x.arr 1 r.arr 1 m
  let m ← saxpy r.asize (-c.im) x.arrc 1 r.arr 1 m
  let m ← saxpy r.asize c.im x.arr 1 r.arrc 1 m
  saxpy r.asize c.re x.arrc 1 r.arrc 1 m

/-- legacy/backendA/CtensorA.hpp:1582-1600 `add_conj(x,c)` on the GPU; `ci` is already the imaginary part with the other sign. -/
def gAddConjC [Neg α] [Add α] [Mul α] (r x : CA) (c : Cx α) (m : Buf α) : Res (Buf α) := do
  Res.assrt (r.asize = x.asize)
  let ci := -c.im
  let m ← saxpy r.asize c.re x.arr 1 r.arr 1 m
  let m ← saxpy r.asize ci x.arrc 1 r.arr 1 m
  let m ← saxpy r.asize (-ci) x.arr 1 r.arrc 1 m
  saxpy r.asize c.re x.arrc 1 r.arrc 1 m

/-- legacy/backendA/CtensorA.hpp:1655-1678 `add_sum(v)` on the GPU. -/
def gAddSum [One α] [Add α] [Mul α] (r : CA) (v : List CA) (m : Buf α) : Res (Buf α) :=
  Res.forM v m fun m o => do
    Res.assrt (o.asize = r.asize)
    let m ← saxpy r.asize 1 o.arr 1 r.arr 1 m
    saxpy r.asize 1 o.arrc 1 r.arrc 1 m

/-- legacy/backendA/CtensorA.hpp:1694-1713 `add_plus(x,y)` (`c` is 1) and 1715-1735 `add_minus(x,y)` (`c` is -1) on the GPU. -/
def gAddPair [One α] [Add α] [Mul α] (c : α) (r x y : CA) (m : Buf α) : Res (Buf α) := do
  Res.assrt (r.asize = x.asize)
  Res.assrt (r.asize = y.asize)
  let m ← saxpy r.asize 1 x.arr 1 r.arr 1 m
  let m ← saxpy r.asize 1 x.arrc 1 r.arrc 1 m
  let m ← saxpy r.asize c y.arr 1 r.arr 1 m
  saxpy r.asize c y.arrc 1 r.arrc 1 m

/-- legacy/backendA/CtensorA.hpp:1185-1205 `inplace_times(c)` on the GPU. -/
def gInplaceTimes [Neg α] [Add α] [Mul α] (x : CA) (c : Cx α) (m : Buf α) : Res (Buf α) := do
  let m ← saxpy x.asize c.re x.arr 1 x.arr 1 m
  let m ← saxpy x.asize (-c.im) x.arrc 1 x.arr 1 m
  let m ← saxpy x.asize c.re x.arrc 1 x.arrc 1 m
  saxpy x.asize c.im x.arr 1 x.arrc 1 m

/-- legacy/backendA/CtensorA.hpp:1219-1234, 1236-1251 `conj()`, `conjp()` on the GPU. -/
def gConj [Zero α] [One α] [Neg α] [Add α] [Mul α] (junk : Nat → α) (q : Nat) (x : CA) (m : Buf α) : Res (CA × Buf α) := do
  let (R, m) ← zero junk q x.dims m
  let m ← saxpy x.asize 1 x.arr 1 R.arr 1 m
  let m ← saxpy x.asize (-1) x.arrc 1 R.arrc 1 m
  .ok (R, m)

/-- legacy/backendA/CtensorA.hpp:1253-1273, 1275-1295 `transp(n)`, `transpp(n)` (`be` is 1) and 1297-1318, 1320-1341 `herm(n)`, `hermp(n)` (`be` is -1) on the GPU: the
result has the sizes of `x`. -/
def gTranspWith [Zero α] [One α] [Add α] [Mul α] (be : α) (junk : Nat → α) (q : Nat) (x : CA) (n : Nat) (m : Buf α) : Res (CA × Buf α) := do
  let J ← x.re.combinedSize 0 n
  Res.need (J ≠ 0)
  let I := x.asize / J
  let (R, m) ← zero junk q x.dims m
  let m ← sgeam 1 0 J I x.arr I R.arr J m
  let m ← sgeam be 0 J I x.arrc I R.arrc J m
  .ok (R, m)

/-- legacy/backendA/CtensorA.hpp:1737-1759 `add_transp(x,n)` (`be` is 1) and 1761-1784 `add_herm(x,n)` (`be` is -1) on the GPU. -/
def gAddTranspWith [One α] [Add α] [Mul α] (be : α) (r x : CA) (n : Nat) (m : Buf α) : Res (Buf α) := do
  Res.assrt (r.asize = x.asize)
  let J ← x.re.combinedSize 0 n
  Res.need (J ≠ 0)
  let I := x.asize / J
  let m ← sgeam 1 1 J I x.arr I r.arr J m
  sgeam be 1 J I x.arrc I r.arrc J m

/-- legacy/backendA/CtensorA.hpp:2015-2023, 2089-2097, 2164-2172: `alpha1`, `alpha2`, `alpha3` for the template argument `selector`. -/
def alphas [One α] [Neg α] (sel : Nat) : α × α × α :=
  (if sel = 0 ∨ sel = 3 then -1 else 1, if sel = 2 ∨ sel = 3 then -1 else 1, if sel = 1 ∨ sel = 3 then -1 else 1)

/-- The four calls of legacy/backendA/CtensorA.hpp:2026-2033, 2100-2107, 2175-2182, with the operations and leading dimensions of `g`. -/
def gemms [Zero α] [One α] [Neg α] [Add α] [Mul α] (sel : Nat) (ta tb : BlasOp) (J I K ly lx : Nat) (r x y : CA) (m : Buf α) : Res (Buf α) := do
  let (a1, a2, a3) := alphas (α := α) sel
  let m ← sgemm 1 ⟨ta, tb, J, I, K, y.arr, ly, 0, x.arr, lx, 0, r.arr, J, 0, 1⟩ m
  let m ← sgemm a1 ⟨ta, tb, J, I, K, y.arrc, ly, 0, x.arrc, lx, 0, r.arr, J, 0, 1⟩ m
  let m ← sgemm a2 ⟨ta, tb, J, I, K, y.arrc, ly, 0, x.arr, lx, 0, r.arrc, J, 0, 1⟩ m
  sgemm a3 ⟨ta, tb, J, I, K, y.arr, ly, 0, x.arrc, lx, 0, r.arrc, J, 0, 1⟩ m

/-- legacy/backendA/CtensorA.hpp:1970-2037 `add_Mprod_AA<selector>(x,y,nx,ny)` on the GPU. -/
def gMprodAA [Zero α] [One α] [Neg α] [Add α] [Mul α] (sel : Nat) (r x y : CA) (nx ny : Nat) (m : Buf α) : Res (Buf α) :=
  if x.asize = 0 ∨ y.asize = 0 then .ok m else do
    Res.assrt (nx ≤ x.dims.length)
    let K ← x.re.combinedSize (x.dims.length - nx) x.dims.length
    let K' ← y.re.combinedSize 0 ny
    Res.assrt (K' = K)
    let I ← x.re.combinedSize 0 (x.dims.length - nx)
    let J ← y.re.combinedSize ny y.dims.length
    Res.assrt (r.asize = I * J)
    if r.asize = 0 then .ok m else gemms sel .N .N J I K J K r x y m

/-- legacy/backendA/CtensorA.hpp:2042-2111 `add_Mprod_AT<selector>(x,y,nx,ny)` on the GPU. -/
def gMprodAT [Zero α] [One α] [Neg α] [Add α] [Mul α] (sel : Nat) (r x y : CA) (nx ny : Nat) (m : Buf α) : Res (Buf α) :=
  if x.asize = 0 ∨ y.asize = 0 then .ok m else do
    Res.assrt (nx ≤ x.dims.length)
    let K ← x.re.combinedSize (x.dims.length - nx) x.dims.length
    Res.assrt (ny ≤ y.dims.length)
    let K' ← y.re.combinedSize (y.dims.length - ny) y.dims.length
    Res.assrt (K' = K)
    let I ← x.re.combinedSize 0 (x.dims.length - nx)
    let J ← y.re.combinedSize 0 (y.dims.length - ny)
    Res.assrt (r.asize = I * J)
    if r.asize = 0 then .ok m else gemms sel .T .N J I K K K r x y m

/-- legacy/backendA/CtensorA.hpp:2116-2186 `add_Mprod_TA<selector>(x,y,nx,ny)` on the GPU. -/
def gMprodTA [Zero α] [One α] [Neg α] [Add α] [Mul α] (sel : Nat) (r x y : CA) (nx ny : Nat) (m : Buf α) : Res (Buf α) :=
  if x.asize = 0 ∨ y.asize = 0 then .ok m else do
    let K ← x.re.combinedSize 0 nx
    let K' ← y.re.combinedSize 0 ny
    Res.assrt (K' = K)
    let I ← x.re.combinedSize nx x.dims.length
    let J ← y.re.combinedSize ny y.dims.length
    Res.assrt (r.asize = I * J)
    if r.asize = 0 then .ok m else gemms sel .N .T J I K J I r x y m

end CA

end Cnine
