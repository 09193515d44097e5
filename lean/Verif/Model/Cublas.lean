import Verif.Model.CView
import Verif.Model.Mat

/-!
# Model of the operations that hand over to cuBLAS

The GPU branches (`dev==1`) of tensor_views/Rtensor1_view.hpp, Rtensor2_view.hpp, Rtensor3_view.hpp, Ctensor2_view.hpp, Ctensor3_view.hpp
and tensors/TensorView.hpp that call a routine of cuBLAS instead of a kernel of this library.

The routines themselves are not in the repository.  They are modelled from their published contract: matrices are stored by columns, a
leading dimension that is too small is an error (include/Cnine_base_CUDA.hpp:31-54 `CUBLAS_SAFE` then prints and exits, here `throw`),
operands that share cells with the result (other than being the result, for `axpy` and `dgmm`) have no defined outcome, here `ub`.
`m` is the memory of the GPU.  A factor `alpha` is passed as it is; `beta` is 1 in every call modelled.  Sizes and strides are natural
numbers and the arithmetic is an arbitrary algebraic structure instead of `float`.
-/

namespace Cnine

/-- `cublasOperation_t`: `CUBLAS_OP_N`, `CUBLAS_OP_T`, `CUBLAS_OP_C`, as used in tensor_views/Rtensor2_view.hpp:260, 289, 322 and
tensor_views/Ctensor2_view.hpp:180, 218, 252. -/
inductive BlasOp | N | T | C
deriving DecidableEq, Repr

/-- Where the entry `(i,l)` of `op(A)` lies in the stored matrix with leading dimension `ld` (the contract of
`cublasSgemm`, called in tensor_views/Rtensor2_view.hpp:260). -/
def BlasOp.pos (o : BlasOp) (ld i l : Nat) : Nat :=
  match o with
  | .N => i + l * ld
  | _ => l + i * ld

/-- The arguments of `cublas<t>gemmStridedBatched(handle,ta,tb,m,n,k,&alpha,a,lda,sa,b,ldb,sb,&beta,c,ldc,sc,cnt)`
(tensor_views/Rtensor3_view.hpp:208-211); `cublas<t>gemm` has `cnt=1`. -/
structure Gemm where
  ta : BlasOp
  tb : BlasOp
  m : Nat
  n : Nat
  k : Nat
  a : Nat
  lda : Nat
  sa : Nat
  b : Nat
  ldb : Nat
  sb : Nat
  c : Nat
  ldc : Nat
  sc : Nat
  cnt : Nat
deriving DecidableEq, Repr

namespace Gemm

/-- First float of entry `(i,l)` of `op(A)` number `t`; an entry has `w` floats (1 for `float`, 2 for `cuComplex`;
tensor_views/Ctensor3_view.hpp:199-202). -/
def A (g : Gemm) (w t i l : Nat) : Nat := g.a + w * (t * g.sa + g.ta.pos g.lda i l)

/-- First float of entry `(l,j)` of `op(B)` number `t` (tensor_views/Ctensor3_view.hpp:199-202). -/
def B (g : Gemm) (w t l j : Nat) : Nat := g.b + w * (t * g.sb + g.tb.pos g.ldb l j)

/-- First float of entry `(i,j)` of the result number `t` (tensor_views/Ctensor3_view.hpp:199-202). -/
def C (g : Gemm) (w t i j : Nat) : Nat := g.c + w * (t * g.sc + (i + j * g.ldc))

/-- The leading dimensions the routine accepts; otherwise it returns `CUBLAS_STATUS_INVALID_VALUE`
(include/Cnine_base_CUDA.hpp:31-54). -/
def ldOk (g : Gemm) : Bool :=
  decide (max 1 (if g.ta = .N then g.m else g.k) ≤ g.lda) && decide (max 1 (if g.tb = .N then g.k else g.n) ≤ g.ldb) &&
    decide (max 1 g.m ≤ g.ldc)

/-- Entries of `w` floats starting at `p` and `q` share no float. -/
def Clear (w p q : Nat) : Prop := p + w ≤ q ∨ q + w ≤ p

instance (w p q : Nat) : Decidable (Clear w p q) := inferInstanceAs (Decidable (_ ∨ _))

/-- Entry `(i,j)` of result `t` is no entry of another position of a result (contract of the routine called in
tensor_views/Rtensor3_view.hpp:208-211). -/
def FineC (g : Gemm) (w t i j : Nat) : Prop :=
  ∀ t', t' < g.cnt → ∀ i', i' < g.m → ∀ j', j' < g.n → (t = t' ∧ i = i' ∧ j = j') ∨ Clear w (g.C w t i j) (g.C w t' i' j')

instance (g : Gemm) (w t i j : Nat) : Decidable (g.FineC w t i j) := by unfold FineC; infer_instance

/-- Entry `(i,j)` of result `t` is no entry of a factor (contract of the routine called in tensor_views/Rtensor3_view.hpp:208-211). -/
def FineAB (g : Gemm) (w t i j : Nat) : Prop :=
  ∀ t', t' < g.cnt → ∀ l, l < g.k → (∀ i', i' < g.m → Clear w (g.C w t i j) (g.A w t' i' l)) ∧
    ∀ j', j' < g.n → Clear w (g.C w t i j) (g.B w t' l j')

instance (g : Gemm) (w t i j : Nat) : Decidable (g.FineAB w t i j) := by unfold FineAB; infer_instance

/-- The entries of the results are different and no entry of a factor (contract of the routine called in
tensor_views/Rtensor3_view.hpp:208-211). -/
def Fine (g : Gemm) (w : Nat) : Prop :=
  ∀ t, t < g.cnt → ∀ i, i < g.m → ∀ j, j < g.n → g.FineC w t i j ∧ g.FineAB w t i j

instance (g : Gemm) (w : Nat) : Decidable (g.Fine w) := by unfold Fine; infer_instance

end Gemm

/-- `cublasSgemmStridedBatched` with `beta=1` (tensor_views/Rtensor3_view.hpp:208-211): `C += alpha·op(A)·op(B)`. -/
def sgemm {α : Type _} [Zero α] [Add α] [Mul α] (al : α) (g : Gemm) (m : Buf α) : Res (Buf α) := do
  Res.assrt g.ldOk
  if g.Fine 1 then
    loop g.cnt m fun t m => loop g.n m fun j m => loop g.m m fun i m => do
      let s ← RV2.dotLoop g.k (fun l => g.A 1 t i l) (fun l => g.B 1 t l j) m
      incCell m (g.C 1 t i j) (al * s)
  else .ub

/-- The entry as `op` shows it: conjugated by `CUBLAS_OP_C` (tensor_views/Ctensor2_view.hpp:218). -/
def BlasOp.val {α : Type} [Neg α] (o : BlasOp) (x : Cx α) : Cx α := if o = .C then x.conj else x

/-- `cublasCgemmStridedBatched` with `alpha=beta=1` (tensor_views/Ctensor3_view.hpp:199-202): entries are pairs of neighbouring floats. -/
def cgemm {α : Type} [Zero α] [Add α] [Sub α] [Neg α] [Mul α] (g : Gemm) (m : Buf α) : Res (Buf α) := do
  Res.assrt g.ldOk
  if g.Fine 2 then
    loop g.cnt m fun t m => loop g.n m fun j m => loop g.m m fun i m => do
      let s ← csum g.k (fun l m => do
        let u ← getC (g.A 2 t i l) (g.A 2 t i l + 1) m
        let v ← getC (g.B 2 t l j) (g.B 2 t l j + 1) m
        .ok (g.ta.val u * g.tb.val v)) m
      incC (g.C 2 t i j) (g.C 2 t i j + 1) s m
  else .ub

/-- The entries of an `axpy` result are different, and an entry of `x` is the entry of the result at the same position or none
(contract of the routine called in tensor_views/Rtensor1_view.hpp:191). -/
def AxpyFine (n x sx y sy : Nat) : Prop :=
  ∀ i, i < n → ∀ j, j < n → (y + i * sy = y + j * sy → i = j) ∧ (y + i * sy = x + j * sx → i = j)

instance (n x sx y sy : Nat) : Decidable (AxpyFine n x sx y sy) := by unfold AxpyFine; infer_instance

/-- `cublasSaxpy(handle,n,&c,x,incx,y,incy)` (tensor_views/Rtensor1_view.hpp:191, 203): `y += c·x`. -/
def saxpy {α : Type _} [Add α] [Mul α] (n : Nat) (c : α) (x sx y sy : Nat) (m : Buf α) : Res (Buf α) :=
  if AxpyFine n x sx y sy then
    loop n m fun i m => do
      let v ← m.read (x + i * sx)
      incCell m (y + i * sy) (c * v)
  else .ub

/-- `cublasSasum(handle,n,x,incx,&t)` (tensor_views/Rtensor1_view.hpp:218): the sum of the absolute values, `av` being the absolute value. -/
def sasum {α : Type _} [Zero α] [Add α] (av : α → α) (n x sx : Nat) (m : Buf α) : Res α :=
  loop n (0 : α) fun i t => do
    let v ← m.read (x + i * sx)
    .ok (t + av v)

/-- `cublasSdgmm(handle,CUBLAS_SIDE_LEFT,m,n,a,lda,x,1,a,lda)` (tensors/TensorView.hpp:652, 674): every column of the stored matrix,
in place, is multiplied entry by entry with the vector `x`. -/
def sdgmm {α : Type _} [Mul α] (rows cols a lda x : Nat) (m : Buf α) : Res (Buf α) := do
  Res.assrt (decide (max 1 rows ≤ lda))
  if ∀ i, i < rows → ∀ j, j < cols → ∀ k, k < rows → a + (i + j * lda) ≠ x + k then
    loop cols m fun j m => loop rows m fun i m => do
      let v ← m.read (a + (i + j * lda))
      let d ← m.read (x + i)
      m.write (a + (i + j * lda)) (d * v)
  else .ub

namespace RV1

variable {α : Type _}

/-- tensor_views/Rtensor1_view.hpp:184-194 `add(x)` on the GPU. -/
def gAdd [One α] [Add α] [Mul α] (r x : RV1) (m : Buf α) : Res (Buf α) := do
  Res.assrt (x.n0 = r.n0)
  if r.isRegular && x.isRegular then saxpy r.n0 1 x.arr 1 r.arr 1 m
  else saxpy r.n0 1 x.arr x.s0 r.arr r.s0 m

/-- tensor_views/Rtensor1_view.hpp:196-206 `add(x,c)` on the GPU. -/
def gAddC [Add α] [Mul α] (c : α) (r x : RV1) (m : Buf α) : Res (Buf α) := do
  Res.assrt (x.n0 = r.n0)
  if r.isRegular && x.isRegular then saxpy r.n0 c x.arr 1 r.arr 1 m
  else saxpy r.n0 c x.arr x.s0 r.arr r.s0 m

/-- tensor_views/Rtensor1_view.hpp:216-221 `reduce()` on the GPU. -/
def gReduce [Zero α] [Add α] (av : α → α) (v : RV1) (m : Buf α) : Res α := sasum av v.n0 v.arr v.s0 m

end RV1

namespace RV2

variable {α : Type _}

/-- tensor_views/Rtensor2_view.hpp:187-194 `add(x)` on the GPU when both matrices are regular (198, the kernel for other strides, is
`Rtensor_add_cu`). -/
def gAdd [One α] [Add α] [Mul α] (r x : RV2) (m : Buf α) : Res (Buf α) := do
  Res.assrt (x.n0 = r.n0)
  Res.assrt (x.n1 = r.n1)
  if x.n0 * x.n1 = 0 then .ok m
  else saxpy (r.n0 * r.n1) 1 x.arr 1 r.arr 1 m

/-- tensor_views/Rtensor2_view.hpp:238-264 `add_matmul_AA(x,y)` on the GPU. -/
def gAddMatmulAA [Zero α] [One α] [Add α] [Mul α] (r x y : RV2) (m : Buf α) : Res (Buf α) := do
  Res.assrt (x.n0 = r.n0)
  Res.assrt (y.n1 = r.n1)
  Res.assrt (y.n0 = x.n1)
  Res.assrt (r.s1 = 1)
  Res.assrt (x.s1 = 1)
  Res.assrt (y.s1 = 1)
  sgemm 1 ⟨.N, .N, r.n1, r.n0, x.n1, y.arr, y.s0, 0, x.arr, x.s0, 0, r.arr, r.s0, 0, 1⟩ m

/-- tensor_views/Rtensor2_view.hpp:266-293 `add_matmul_AT(x,y)` on the GPU. -/
def gAddMatmulAT [Zero α] [One α] [Add α] [Mul α] (r x y : RV2) (m : Buf α) : Res (Buf α) := do
  Res.assrt (x.n0 = r.n0)
  Res.assrt (y.n0 = r.n1)
  Res.assrt (y.n1 = x.n1)
  Res.assrt (r.s1 = 1)
  Res.assrt (x.s1 = 1)
  Res.assrt (y.s1 = 1)
  sgemm 1 ⟨.T, .N, r.n1, r.n0, x.n1, y.arr, y.s0, 0, x.arr, x.s0, 0, r.arr, r.s0, 0, 1⟩ m

/-- tensor_views/Rtensor2_view.hpp:299-326 `add_matmul_TA(x,y)` on the GPU. -/
def gAddMatmulTA [Zero α] [One α] [Add α] [Mul α] (r x y : RV2) (m : Buf α) : Res (Buf α) := do
  Res.assrt (x.n1 = r.n0)
  Res.assrt (y.n0 = x.n0)
  Res.assrt (y.n1 = r.n1)
  Res.assrt (r.s1 = 1)
  Res.assrt (x.s1 = 1)
  Res.assrt (y.s1 = 1)
  sgemm 1 ⟨.N, .T, r.n1, r.n0, y.n0, y.arr, y.s0, 0, x.arr, x.s0, 0, r.arr, r.s0, 0, 1⟩ m

/-- tensor_views/Rtensor2_view.hpp:220-236 `add_mprod(x,y)` on the GPU. -/
def gAddMprod [Zero α] [One α] [Add α] [Mul α] (r x y : RV2) (m : Buf α) : Res (Buf α) :=
  if r.isRegular && (x.isRegular && y.isRegular) then gAddMatmulAA r x y m
  else if r.isRegular && (x.isRegular && y.isTranspose) then gAddMatmulAT r x y.transp m
  else if r.isRegular && (x.isTranspose && y.isRegular) then gAddMatmulTA r x.transp y m
  else .ok m

/-- tensor_views/Rtensor2_view.hpp:536-553 `add_broadcast0(x,alpha)` on the GPU; `one` is the cell of `cuda_oneS`, which holds 1.
Other strides than 1 of the inner axes only print. -/
def gAddBroadcast0 [Zero α] [Add α] [Mul α] (one : Nat) (al : α) (r : RV2) (x : RV1) (m : Buf α) : Res (Buf α) := do
  Res.assrt (x.n0 = r.n1)
  if x.s0 = 1 ∧ r.s1 = 1 then
    sgemm al ⟨.N, .N, r.n1, 1, 1, x.arr, x.n0, 0, one, 1, 0, r.arr, x.n0, r.s0, r.n0⟩ m
  else .ok m

end RV2

namespace RV3

variable {α : Type _}

/-- tensor_views/Rtensor3_view.hpp:145-149, 156-160 `add(x)` and `add(x,c)` on the GPU, `c` being 1 for the first, when both tensors are
regular and have the same sizes. -/
def gAddC [Add α] [Mul α] (c : α) (r x : RV3) (m : Buf α) : Res (Buf α) := saxpy (r.n0 * r.n1 * r.n2) c x.arr 1 r.arr 1 m

/-- tensor_views/Rtensor3_view.hpp:191-220 `add_mprod(x,y)` on the GPU. -/
def gAddMprod [Zero α] [One α] [Add α] [Mul α] (r : RV3) (x : RV2) (y : RV3) (m : Buf α) : Res (Buf α) := do
  Res.assrt (r.n0 = y.n0)
  Res.assrt (r.n1 = x.n0)
  Res.assrt (r.n2 = y.n2)
  Res.assrt (x.n1 = y.n1)
  if x.isRegular then
    sgemm 1 ⟨.N, .N, r.n2, r.n1, x.n1, y.arr, y.s1, y.s0, x.arr, x.s0, 0, r.arr, r.s1, r.s0, r.n0⟩ m
  else if x.isTranspose then
    sgemm 1 ⟨.N, .T, r.n2, r.n1, x.n1, y.arr, y.s1, y.s0, x.arr, x.s1, 0, r.arr, r.s1, r.s0, r.n0⟩ m
  else .ok m

end RV3

namespace CV2

variable {α : Type}

/-- tensor_views/Ctensor2_view.hpp:158-187 `add_matmul_AA(x,y)` on the GPU. -/
def gAddMatmulAA [Zero α] [Add α] [Sub α] [Neg α] [Mul α] (r x y : CV2) (m : Buf α) : Res (Buf α) := do
  Res.assrt r.isRegular
  cgemm ⟨.N, .N, r.n1, r.n0, x.n1, y.arr, y.n1, 0, x.arr, x.n1, 0, r.arr, r.n1, 0, 1⟩ m

/-- tensor_views/Ctensor2_view.hpp:193-223 `add_matmul_AH(x,y)` on the GPU. -/
def gAddMatmulAH [Zero α] [Add α] [Sub α] [Neg α] [Mul α] (r x y : CV2) (m : Buf α) : Res (Buf α) := do
  Res.assrt (x.n0 = r.n0)
  Res.assrt (y.n0 = r.n1)
  Res.assrt (y.n1 = x.n1)
  Res.assrt r.isRegular
  cgemm ⟨.C, .N, r.n1, r.n0, x.n1, y.arr, y.n1, 0, x.arr, x.n1, 0, r.arr, r.n1, 0, 1⟩ m

/-- tensor_views/Ctensor2_view.hpp:227-257 `add_matmul_HA(x,y)` on the GPU. -/
def gAddMatmulHA [Zero α] [Add α] [Sub α] [Neg α] [Mul α] (r x y : CV2) (m : Buf α) : Res (Buf α) := do
  Res.assrt (x.n1 = r.n0)
  Res.assrt (y.n1 = r.n1)
  Res.assrt (y.n0 = x.n0)
  Res.assrt r.isRegular
  cgemm ⟨.N, .C, r.n1, r.n0, x.n0, y.arr, y.n1, 0, x.arr, x.n1, 0, r.arr, r.n1, 0, 1⟩ m

/-- tensor_views/Ctensor2_view.hpp:138-147 `add(x)` on the GPU when both matrices are regular (139 `CNINE_UNIMPL` only prints). -/
def gAdd [One α] [Add α] [Mul α] (r x : CV2) (m : Buf α) : Res (Buf α) := do
  Res.assrt (x.n0 = r.n0)
  Res.assrt (x.n1 = r.n1)
  if x.n0 * x.n1 = 0 then .ok m
  else saxpy (r.n0 * r.n1) 1 x.arr 1 r.arr 1 m

end CV2

namespace CV3

variable {α : Type}

/-- tensor_views/Ctensor3_view.hpp:170-208 `add_mix_1_0(x,y)` on the GPU. -/
def gAddMix10 [Zero α] [Add α] [Sub α] [Neg α] [Mul α] (r x : CV3) (y : CV2) (m : Buf α) : Res (Buf α) := do
  Res.assrt (y.n0 = x.n1)
  Res.assrt (x.n0 = r.n0)
  Res.assrt (y.n1 = r.n1)
  Res.assrt (x.n2 = r.n2)
  Res.assrt r.isRegular
  cgemm ⟨.N, .T, r.n2, r.n1, x.n1, x.arr, x.n2, x.s0 / 2, y.arr, y.n1, 0, r.arr, r.n2, r.s0 / 2, r.n0⟩ m

end CV3

namespace View

variable {α : Type _}

/-- tensors/TensorView.hpp:479-484 `set_zero()` on the GPU: a `cudaMemset` of `asize()` entries; other strides only print. -/
def gSetZero [Zero α] (v : View) (m : Buf α) : Res (Buf α) := do
  let c ← isContiguous v.strides v.dims
  if c then loop (asize v.dims) m fun i m => m.write (v.off + i) 0 else .ok m

/-- tensors/TensorView.hpp:495-501 `inplace_times(c)` on the GPU: `saxpy` with the tensor as both operands; other strides only print. -/
def gInplaceTimes [Add α] [Mul α] (c : α) (v : View) (m : Buf α) : Res (Buf α) := do
  let b ← isContiguous v.strides v.dims
  if b then saxpy (asize v.dims) c v.off 1 v.off 1 m else .ok m

/-- tensors/functions/TensorView_add.hpp:33-57 `TensorView_add` on the GPU for `float` and `double`, when both tensors have the same
strides without gaps (other strides go to the kernel of `TensorView_add_cu`, modelled in Verif/Model/GpuT.lean; here they do nothing). -/
def gAddView [One α] [Add α] [Mul α] (r x : View) (m : Buf α) : Res (Buf α) := do
  Res.assrt (r.dims = x.dims)
  if asize r.dims = 0 then .ok m
  else do
    let c ← isContiguous r.strides r.dims
    if c = true ∧ r.strides = x.strides then do
      let n ← memsize r.strides r.dims
      saxpy n 1 x.off 1 r.off 1 m
    else .ok m

/-- tensors/TensorView.hpp:638-655 `add_scale_columns(x,y)` and 657-680 `add_mul_columns(x,y)` on the GPU: `x` is not used. -/
def gAddScaleColumns [Mul α] (r x y : View) (m : Buf α) : Res (Buf α) := do
  Res.assrt (x.dims.length = 2)
  Res.assrt (y.dims.length = 1)
  let n ← Res.get r.dims 0
  let nc ← Res.get r.dims 1
  let x0 ← Res.get x.dims 0
  Res.assrt (x0 = n)
  let x1 ← Res.get x.dims 1
  Res.assrt (x1 = nc)
  let y0 ← Res.get y.dims 0
  Res.assrt (y0 = nc)
  sdgmm nc n r.off nc y.off m

end View

end Cnine
