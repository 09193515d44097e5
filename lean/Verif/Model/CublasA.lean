import Verif.Model.Cublas
import Verif.Model.RtensorA

/-!
# The old backend on the GPU, where it calls cuBLAS

The branches of legacy/backendA/RtensorA.hpp for `dev==1` that call cuBLAS.  As in Verif/Model/Cublas.lean the routines follow their published contract; `m` is the memory of
the GPU, and `arr` stands for `arrg`.
-/

namespace Cnine

variable {α : Type}

/-- `cublasSdot(handle,n,x,1,y,1,&t)` (legacy/backendA/RtensorA.hpp:1956, 1973). -/
def cublasDot [Zero α] [Add α] [Mul α] (n x y : Nat) (m : Buf α) : Res α :=
  loop n (0 : α) fun i t => do
    let a ← m.read (x + i)
    let b ← m.read (y + i)
    .ok (t + a * b)

/-- The `rows`×`cols` result of `geam` shares no cell with the transposed operand (contract of the routine called in legacy/backendA/RtensorA.hpp:1830). -/
def GeamFine (rows cols a lda c ldc : Nat) : Prop :=
  ∀ i, i < rows → ∀ j, j < cols → ∀ i', i' < rows → ∀ j', j' < cols → c + (i + j * ldc) ≠ a + (j' + i' * lda)

instance (rows cols a lda c ldc : Nat) : Decidable (GeamFine rows cols a lda c ldc) := by unfold GeamFine; infer_instance

/-- `cublasSgeam(handle,CUBLAS_OP_T,CUBLAS_OP_N,rows,cols,&al,a,lda,&be,c,ldc,c,ldc)` (legacy/backendA/RtensorA.hpp:1830, 1849, 2203): the stored matrix `c` becomes
`al` times the transpose of `a` plus `be` times `c`. -/
def sgeam [Add α] [Mul α] (al be : α) (rows cols a lda c ldc : Nat) (m : Buf α) : Res (Buf α) := do
  Res.assrt (decide (max 1 cols ≤ lda))
  Res.assrt (decide (max 1 rows ≤ ldc))
  if GeamFine rows cols a lda c ldc then
    loop cols m fun j m => loop rows m fun i m => do
      let u ← m.read (a + (j + i * lda))
      let v ← m.read (c + (i + j * ldc))
      m.write (c + (i + j * ldc)) (al * u + be * v)
  else .ub

namespace RA

/-- legacy/backendA/RtensorA.hpp:2044-2058 `add(x)` and 2065-2076 `add(x,c)` on the GPU (`c` is 1 for the first). -/
def gAddScaled [Add α] [Mul α] (r x : RA) (c : α) (m : Buf α) : Res (Buf α) := do
  Res.assrt (r.asize = x.asize)
  saxpy r.asize c x.arr 1 r.arr 1 m

/-- legacy/backendA/RtensorA.hpp:2138-2148 `subtract(x)` on the GPU. -/
def gSubtract [One α] [Neg α] [Add α] [Mul α] (r x : RA) (m : Buf α) : Res (Buf α) := gAddScaled r x (-1) m

/-- legacy/backendA/RtensorA.hpp:2115-2136 `add_sum(v)` on the GPU. -/
def gAddSum [One α] [Add α] [Mul α] (r : RA) (v : List RA) (m : Buf α) : Res (Buf α) :=
  Res.forM v m fun m o => do
    Res.assrt (o.asize = r.asize)
    saxpy r.asize 1 o.arr 1 r.arr 1 m

/-- legacy/backendA/RtensorA.hpp:2150-2166 `add_plus(x,y)` (`c` is 1) and 2168-2185 `add_minus(x,y)` (`c` is -1) on the GPU. -/
def gAddTwo [One α] [Add α] [Mul α] (c : α) (r x y : RA) (m : Buf α) : Res (Buf α) := do
  Res.assrt (r.asize = x.asize)
  Res.assrt (r.asize = y.asize)
  let m ← saxpy r.asize 1 x.arr 1 r.arr 1 m
  saxpy r.asize c y.arr 1 r.arr 1 m

/-- legacy/backendA/RtensorA.hpp:1783-1794 `inplace_times(c)` on the GPU. -/
def gInplaceTimes [Add α] [Mul α] (x : RA) (c : α) (m : Buf α) : Res (Buf α) := saxpy x.asize c x.arr 1 x.arr 1 m

/-- legacy/backendA/RtensorA.hpp:1948-1958 `norm2()` on the GPU. -/
def gNorm2 [Zero α] [Add α] [Mul α] (x : RA) (m : Buf α) : Res α := cublasDot x.asize x.arr x.arr m

/-- legacy/backendA/RtensorA.hpp:1961-1975 `inp(x)` on the GPU. -/
def gInp [Zero α] [Add α] [Mul α] (r x : RA) (m : Buf α) : Res α := do
  Res.assrt (r.asize = x.asize)
  if r.asize = 0 then .ok 0 else cublasDot r.asize r.arr x.arr m

/-- legacy/backendA/RtensorA.hpp:1816-1833, 1835-1852 `transp(n)`, `transpp(n)` on the GPU: the result has the sizes of `x`. -/
def gTransp [Zero α] [One α] [Add α] [Mul α] (junk : Nat → α) (q : Nat) (x : RA) (n : Nat) (m : Buf α) : Res (RA × Buf α) := do
  let J ← x.combinedSize 0 n
  Res.need (J ≠ 0)
  let I := x.asize / J
  let (R, m) ← zero junk q x.dims m
  let m ← sgeam 1 0 J I x.arr I R.arr J m
  .ok (R, m)

/-- legacy/backendA/RtensorA.hpp:2187-2206 `add_transp(x,n)` on the GPU. -/
def gAddTransp [One α] [Add α] [Mul α] (r x : RA) (n : Nat) (m : Buf α) : Res (Buf α) := do
  Res.assrt (r.asize = x.asize)
  let J ← x.combinedSize 0 n
  Res.need (J ≠ 0)
  let I := x.asize / J
  sgeam 1 1 J I x.arr I r.arr J m

/-- legacy/backendA/RtensorA.hpp:2375-2429 `add_Mprod_AA(x,y,nx,ny)` on the GPU. -/
def gMprodAA [Zero α] [One α] [Add α] [Mul α] (r x y : RA) (nx ny : Nat) (m : Buf α) : Res (Buf α) :=
  if x.asize = 0 ∨ y.asize = 0 then .ok m else do
    Res.assrt (nx ≤ x.dims.length)
    let K ← x.combinedSize (x.dims.length - nx) x.dims.length
    let K' ← y.combinedSize 0 ny
    Res.assrt (K' = K)
    let I ← x.combinedSize 0 (x.dims.length - nx)
    let J ← y.combinedSize ny y.dims.length
    Res.assrt (r.asize = I * J)
    if r.asize = 0 then .ok m else
      sgemm 1 ⟨.N, .N, J, I, K, y.arr, J, 0, x.arr, K, 0, r.arr, J, 0, 1⟩ m

/-- legacy/backendA/RtensorA.hpp:2433-2479 `add_Mprod_AT(x,y,nx,ny)` on the GPU. -/
def gMprodAT [Zero α] [One α] [Add α] [Mul α] (r x y : RA) (nx ny : Nat) (m : Buf α) : Res (Buf α) :=
  if x.asize = 0 ∨ y.asize = 0 then .ok m else do
    Res.assrt (nx ≤ x.dims.length)
    let K ← x.combinedSize (x.dims.length - nx) x.dims.length
    Res.assrt (ny ≤ y.dims.length)
    let K' ← y.combinedSize (y.dims.length - ny) y.dims.length
    Res.assrt (K' = K)
    let I ← x.combinedSize 0 (x.dims.length - nx)
    let J ← y.combinedSize 0 (y.dims.length - ny)
    Res.assrt (r.asize = I * J)
    if r.asize = 0 then .ok m else
      sgemm 1 ⟨.T, .N, J, I, K, y.arr, K, 0, x.arr, K, 0, r.arr, J, 0, 1⟩ m

/-- legacy/backendA/RtensorA.hpp:2483-2530 `add_Mprod_TA(x,y,nx,ny)` on the GPU. -/
def gMprodTA [Zero α] [One α] [Add α] [Mul α] (r x y : RA) (nx ny : Nat) (m : Buf α) : Res (Buf α) :=
  if x.asize = 0 ∨ y.asize = 0 then .ok m else do
    let K ← x.combinedSize 0 nx
    let K' ← y.combinedSize 0 ny
    Res.assrt (K' = K)
    let I ← x.combinedSize nx x.dims.length
    let J ← y.combinedSize ny y.dims.length
    Res.assrt (r.asize = I * J)
    if r.asize = 0 then .ok m else
      sgemm 1 ⟨.N, .T, J, I, K, y.arr, J, 0, x.arr, I, 0, r.arr, J, 0, 1⟩ m

end RA

end Cnine
