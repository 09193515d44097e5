import Verif.Model.Gpu
import Verif.Model.RView3

/-!
# The kernels for views with one, two and three axes

cuda/RtensorUtils.cu, cuda/RtensorReduce.cu and cuda/CUDAhelpers.hpp: the `__global__` functions and the launches the functions of the host make.  Offsets are natural
numbers (`unsigned`, no overflow).  A function of the host gives the list of its launches; `CNINE_UNIMPL` only prints.
-/

namespace Cnine

variable {α : Type}

namespace Gpu

/-- What the kernels do with a cell `r` and a cell `x`: `r=x`, `r+=x`, `r+=c*x`, `r+=x*c` and `r=x*c` (cuda/RtensorUtils.cu:52, 61, 105, 190, 145). -/
inductive Kind (α : Type)
  | copy
  | add
  | addL (c : α)
  | addR (c : α)
  | copyR (c : α)

/-- The statement for the cells `r` and `x` (cuda/RtensorUtils.cu:52, 61, 105, 190, 145). -/
def Kind.thr [Add α] [Mul α] (k : Kind α) (r x : Nat) : Thr α Unit := do
  let v ← Thr.rd x
  match k with
  | .copy => Thr.wr r v
  | .add => Thr.inc r v
  | .addL c => Thr.inc r (c * v)
  | .addR c => Thr.inc r (v * c)
  | .copyR c => Thr.wr r (v * c)

section kernels

variable [Add α] [Mul α] (k : Kind α) (rarr arr : Nat)

/-- cuda/RtensorUtils.cu:50-53, 59-62 `Rtensor_..._kernel_t`. -/
def kT (s0 rs0 : Nat) : D3 → D3 → Thr α Unit := fun _ t => k.thr (rarr + t.x * rs0) (arr + t.x * s0)

/-- cuda/RtensorUtils.cu:68-71, 87-90, 103-106 `Rtensor_..._kernel_tt`. -/
def kTT (s0 s1 rs0 rs1 : Nat) : D3 → D3 → Thr α Unit := fun _ t => k.thr (rarr + (t.x * rs0 + t.y * rs1)) (arr + (t.x * s0 + t.y * s1))

/-- cuda/RtensorUtils.cu:73-76, 92-95, 108-111 `Rtensor_..._kernel_bt`. -/
def kBT (s0 s1 rs0 rs1 : Nat) : D3 → D3 → Thr α Unit := fun b t => k.thr (rarr + (b.x * rs0 + t.x * rs1)) (arr + (b.x * s0 + t.x * s1))

/-- cuda/RtensorUtils.cu:78-81, 97-100, 113-116 `Rtensor_..._kernel_bb`. -/
def kBB (s0 s1 rs0 rs1 : Nat) : D3 → D3 → Thr α Unit := fun b _ => k.thr (rarr + (b.x * rs0 + b.y * rs1)) (arr + (b.x * s0 + b.y * s1))

/-- cuda/RtensorUtils.cu:122-125, 143-146, 167-170, 188-191 `Rtensor_..._kernel_ttt`. -/
def kTTT (s0 s1 s2 rs0 rs1 rs2 : Nat) : D3 → D3 → Thr α Unit := fun _ t =>
  k.thr (rarr + (t.x * rs0 + t.y * rs1 + t.z * rs2)) (arr + (t.x * s0 + t.y * s1 + t.z * s2))

/-- cuda/RtensorUtils.cu:127-130, 148-151, 172-175, 193-196 `Rtensor_..._kernel_btt`. -/
def kBTT (s0 s1 s2 rs0 rs1 rs2 : Nat) : D3 → D3 → Thr α Unit := fun b t =>
  k.thr (rarr + (b.x * rs0 + t.x * rs1 + t.y * rs2)) (arr + (b.x * s0 + t.x * s1 + t.y * s2))

/-- cuda/RtensorUtils.cu:132-135, 153-156, 177-180, 198-201 `Rtensor_..._kernel_bbt`. -/
def kBBT (s0 s1 s2 rs0 rs1 rs2 : Nat) : D3 → D3 → Thr α Unit := fun b t =>
  k.thr (rarr + (b.x * rs0 + b.y * rs1 + t.x * rs2)) (arr + (b.x * s0 + b.y * s1 + t.x * s2))

/-- cuda/RtensorUtils.cu:137-140, 158-161, 182-185, 203-206 `Rtensor_..._kernel_bbb`. -/
def kBBB (s0 s1 s2 rs0 rs1 rs2 : Nat) : D3 → D3 → Thr α Unit := fun b _ =>
  k.thr (rarr + (b.x * rs0 + b.y * rs1 + b.z * rs2)) (arr + (b.x * s0 + b.y * s1 + b.z * s2))

end kernels

/-- cuda/RtensorUtils.cu:361-368 `Rtensor_copy_cu(r,x)` and 393-401 `Rtensor_add_cu(r,x)` for vectors: the kernels `_t` are launched with no block, and the offset of `x` in
the last launch lacks its stride. -/
def vec1 [Add α] [Mul α] (k : Kind α) (r x : RV1) : List (Launch α) :=
  if x.n0 < 1024 then [⟨⟨0, 1, 1⟩, ⟨x.n0, 1, 1⟩, kT k r.arr x.arr x.s0 r.s0⟩]
  else [⟨⟨x.n0 / 1024, 1, 1⟩, ⟨1024, 1, 1⟩, kBT k r.arr x.arr (1024 * x.s0) x.s0 (1024 * r.s0) r.s0⟩,
    ⟨⟨0, 1, 1⟩, ⟨x.n0 % 1024, 1, 1⟩, kT k (r.arr + (x.n0 - x.n0 % 1024) * r.s0) (x.arr + (x.n0 - x.n0 % 1024)) x.s0 r.s0⟩]

/-- cuda/CUDAhelpers.hpp:29-62 `dispatch(r,x,tt_fn,bt_fn,bb_fn)` with the functions of cuda/RtensorUtils.cu:370-378 `Rtensor_copy_cu(r,x)`, 403-411 `Rtensor_add_cu(r,x)` and
413-421 `Rtensor_add_cu(r,x,c)`. -/
def mat2 [Add α] [Mul α] (k : Kind α) (r x : RV2) : List (Launch α) :=
  if x.n0 * x.n1 ≤ 1024 then [⟨⟨1, 1, 1⟩, ⟨x.n0, x.n1, 1⟩, kTT k r.arr x.arr x.s0 x.s1 r.s0 r.s1⟩]
  else if x.n1 ≤ 1024 then [⟨⟨x.n0, 1, 1⟩, ⟨x.n1, 1, 1⟩, kBT k r.arr x.arr x.s0 x.s1 r.s0 r.s1⟩]
  else if x.n0 ≤ 1024 then [⟨⟨x.n1, 1, 1⟩, ⟨x.n0, 1, 1⟩, kBT k r.arr x.arr x.s1 x.s0 r.s1 r.s0⟩]
  else [⟨⟨x.n0, x.n1, 1⟩, ⟨1, 1, 1⟩, kBB k r.arr x.arr x.s0 x.s1 r.s0 r.s1⟩]

/-- cuda/CUDAhelpers.hpp:65-128 `dispatch(r,x,ttt_fn,btt_fn,bbt_fn,bbb_fn)` with the functions of cuda/RtensorUtils.cu:380-390 `Rtensor_copy_cu(r,x)`, 423-433
`Rtensor_add_cu(r,x)` and 435-445 `Rtensor_add_cu(r,x,c)`: lines 106, 113, 120 and 126 mix up the strides. -/
def ten3 [Add α] [Mul α] (k : Kind α) (r x : RV3) : List (Launch α) :=
  if x.n0 * x.n1 * x.n2 ≤ 1024 then [⟨⟨1, 1, 1⟩, ⟨x.n0, x.n1, x.n2⟩, kTTT k r.arr x.arr x.s0 x.s1 x.s2 r.s0 r.s1 r.s2⟩]
  else if x.n1 * x.n2 ≤ 1024 then [⟨⟨x.n0, 1, 1⟩, ⟨x.n1, x.n2, 1⟩, kBTT k r.arr x.arr x.s0 x.s1 x.s2 r.s0 r.s1 r.s2⟩]
  else if x.n0 * x.n2 ≤ 1024 then [⟨⟨x.n1, 1, 1⟩, ⟨x.n0, x.n2, 1⟩, kBTT k r.arr x.arr x.s1 x.s0 x.s2 r.s1 r.s0 r.s2⟩]
  else if x.n0 * x.n1 ≤ 1024 then [⟨⟨x.n2, 1, 1⟩, ⟨x.n0, x.n1, 1⟩, kBTT k r.arr x.arr x.s2 x.s0 x.s1 r.s2 r.s0 r.s1⟩]
  else if x.n2 ≤ 1024 then [⟨⟨x.n0, x.n1, 1⟩, ⟨x.n2, 1, 1⟩, kBBT k r.arr x.arr x.s0 x.s1 x.s2 r.s0 r.s0 r.s2⟩]
  else if x.n1 ≤ 1024 then [⟨⟨x.n0, x.n2, 1⟩, ⟨x.n1, 1, 1⟩, kBBT k r.arr x.arr x.s1 x.s0 x.s2 r.s1 r.s0 r.s2⟩]
  else if x.n0 ≤ 1024 then [⟨⟨x.n1, x.n2, 1⟩, ⟨x.n0, 1, 1⟩, kBBT k r.arr x.arr x.s2 x.s0 x.s1 r.s2 r.s0 r.s1⟩]
  else [⟨⟨x.n0, x.n1, x.n2⟩, ⟨1, 1, 1⟩, kBBB k r.arr x.arr x.s0 x.s1 x.s1 r.s0 r.s1 r.s1⟩]

/-- cuda/RtensorUtils.cu:42-44, 356-358 `Rtensor_inc_cu(p,v)`. -/
def incOne [Add α] (p : Nat) (v : α) : List (Launch α) := [⟨⟨1, 1, 1⟩, ⟨1, 1, 1⟩, fun _ _ => Thr.inc p v⟩]

/-- cuda/RtensorUtils.cu:212-214 `batched_add_kernel_0`. -/
def kBatch0 [Add α] (rarr arr sb s0 : Nat) : D3 → D3 → Thr α Unit := fun b t => do
  let v ← Thr.rd (arr + (b.x * sb + t.x * s0))
  Thr.inc (rarr + (b.x * sb + t.x * s0)) v

/-- cuda/RtensorUtils.cu:216-218 `batched_add_kernel_1`. -/
def kBatch1 [Add α] (rarr arr sb s0 s1 : Nat) : D3 → D3 → Thr α Unit := fun b t => do
  let v ← Thr.rd (arr + (b.x * sb + b.y * s0 + t.x * s1))
  Thr.inc (rarr + (b.x * sb + b.y * s0 + t.x * s1)) v

/-- cuda/RtensorUtils.cu:448-456 `batched_add_cu(rarr,arr,b,sb,n,s)`. -/
def batchedAdd [Add α] (rarr arr b sb n s : Nat) : List (Launch α) :=
  if n ≤ 1024 then [⟨⟨b, 1, 1⟩, ⟨n, 1, 1⟩, kBatch0 rarr arr sb s⟩]
  else ⟨⟨b, n / 1024, 1⟩, ⟨1024, 1, 1⟩, kBatch1 rarr arr sb (s * 1024) s⟩ ::
    (if 0 < n % 1024 then [⟨⟨b, 1, 1⟩, ⟨n % 1024, 1, 1⟩, kBatch0 (rarr + (n - n % 1024) * s) (arr + (n - n % 1024) * s) sb s⟩] else [])

/-- cuda/RtensorUtils.cu:225-230 `Rtensor_sum0_into_kernel_0` without a factor, 232-237 with a factor `c` (`some c`). -/
def kSum0 [Zero α] [Add α] [Mul α] (c : Option α) (rarr arr rs0 s0 s1 n : Nat) : D3 → D3 → Thr α Unit := fun _ t => do
  let v ← Thr.loop n 0 fun i v => do
    let w ← Thr.rd (arr + (i * s0 + t.x * s1))
    pure (v + w)
  match c with
  | none => Thr.inc (rarr + t.x * rs0) v
  | some c => Thr.inc (rarr + t.x * rs0) (v * c)

/-- cuda/RtensorUtils.cu:239-244 `Rtensor_sum0_into_kernel_1` without a factor, 246-251 with a factor `c` (`some c`). -/
def kSum1 [Zero α] [Add α] [Mul α] (c : Option α) (rarr arr rs0 s0 s1 n : Nat) : D3 → D3 → Thr α Unit := fun b t => do
  let v ← Thr.loop n 0 fun i v => do
    let w ← Thr.rd (arr + (i * s0 + (b.x * 1024 + t.x) * s1))
    pure (v + w)
  match c with
  | none => Thr.inc (rarr + (b.x * 1024 + t.x) * rs0) v
  | some c => Thr.inc (rarr + (b.x * 1024 + t.x) * rs0) (v * c)

/-- cuda/RtensorUtils.cu:459-468 `Rtensor_sum0_into_cu(r,x)` (`none`) and 470-479 `Rtensor_sum0_into_cu(r,x,c)` (`some c`). -/
def sum0Into [Zero α] [Add α] [Mul α] (c : Option α) (r : RV1) (x : RV2) : Res (List (Launch α)) := do
  let n := x.n1
  Res.assrt (r.n0 = n)
  if n ≤ 1024 then .ok [⟨⟨1, 1, 1⟩, ⟨n, 1, 1⟩, kSum0 c r.arr x.arr r.s0 x.s0 x.s1 x.n0⟩]
  else .ok (⟨⟨n / 1024, 1, 1⟩, ⟨1024, 1, 1⟩, kSum1 c r.arr x.arr r.s0 x.s0 x.s1 x.n0⟩ ::
    (if 0 < n % 1024 then [⟨⟨1, 1, 1⟩, ⟨n % 1024, 1, 1⟩, kSum0 c (r.arr + (n - n % 1024) * r.s0) (x.arr + (n - n % 1024) * x.s1) r.s0 x.s0 x.s1 x.n0⟩] else []))

/-- cuda/RtensorUtils.cu:254-260 `Rtensor3_sum1_into_kernel_0`. -/
def kSum3 [Zero α] [Add α] (rarr arr rs0 rs1 s0 s1 s2 n : Nat) : D3 → D3 → Thr α Unit := fun b t => do
  let v ← Thr.loop n 0 fun i v => do
    let w ← Thr.rd (arr + (b.x * s0 + i * s1 + t.x * s2))
    pure (v + w)
  Thr.inc (rarr + (b.x * rs0 + t.x * rs1)) v

/-- cuda/RtensorUtils.cu:481-489 `Rtensor3_sum1_into_cu(r,x)`. -/
def sum1Into [Zero α] [Add α] (r : RV2) (x : RV3) : Res (List (Launch α)) := do
  Res.assrt (r.n0 = x.n0)
  Res.assrt (r.n1 = x.n2)
  if x.n2 ≤ 1024 then .ok [⟨⟨x.n0, 1, 1⟩, ⟨x.n2, 1, 1⟩, kSum3 r.arr x.arr r.s0 r.s1 x.s0 x.s1 x.s2 x.n1⟩]
  else .ok []

/-- `ix[p]`: the kernels do not write the memory of the indices (cuda/RtensorUtils.cu:267). -/
def ldIx (mi : Buf Int) (p : Nat) : Thr α Int :=
  match mi p with
  | some i => .ret i
  | none => .fail

/-- `arr[p]` with a signed offset (cuda/RtensorUtils.cu:267). -/
def addr (p : Int) : Thr α Nat := if 0 ≤ p then .ret p.toNat else .fail

/-- cuda/RtensorUtils.cu:266-268 `ScaleSomeSlices_kernel_t`. -/
def kScaleT [Mul α] (mi : Buf Int) (arr s0 s1 ix c : Nat) : D3 → D3 → Thr α Unit := fun b t => do
  let i ← ldIx mi (ix + b.x)
  let p ← addr (arr + (i * s0 + t.x * s1))
  let f ← Thr.rd (c + b.x)
  let v ← Thr.rd p
  Thr.wr p (v * f)

/-- cuda/RtensorUtils.cu:270-272 `ScaleSomeSlices_kernel_tt`. -/
def kScaleTT [Mul α] (mi : Buf Int) (arr s0 s1 s2 ix c : Nat) : D3 → D3 → Thr α Unit := fun b t => do
  let i ← ldIx mi (ix + b.x)
  let p ← addr (arr + (i * s0 + t.x * s1 + t.y * s2))
  let f ← Thr.rd (c + b.x)
  let v ← Thr.rd p
  Thr.wr p (v * f)

/-- cuda/RtensorUtils.cu:274-276 `ScaleSomeSlices_kernel_bt`. -/
def kScaleBT [Mul α] (mi : Buf Int) (arr s0 s1 s2 ix c : Nat) : D3 → D3 → Thr α Unit := fun b t => do
  let i ← ldIx mi (ix + b.x)
  let p ← addr (arr + (i * s0 + b.y * s1 + t.x * s2))
  let f ← Thr.rd (c + b.x)
  let v ← Thr.rd p
  Thr.wr p (v * f)

/-- cuda/RtensorUtils.cu:493-501 `ScaleSomeSlices_cu(x,indices,coeffs)` for a matrix; `n`, `ix` the number and place of the indices, `c` the place of the factors. -/
def scale2 [Mul α] (mi : Buf Int) (x : RV2) (n ix c : Nat) : List (Launch α) :=
  if x.n1 ≤ 1024 then [⟨⟨n, 1, 1⟩, ⟨x.n1, 1, 1⟩, kScaleT mi x.arr x.s0 x.s1 ix c⟩] else []

/-- cuda/RtensorUtils.cu:503-523 `ScaleSomeSlices_cu(x,indices,coeffs)` for three axes. -/
def scale3 [Mul α] (mi : Buf Int) (x : RV3) (n ix c : Nat) : List (Launch α) :=
  if x.n1 * x.n2 ≤ 1024 then [⟨⟨n, 1, 1⟩, ⟨x.n1, x.n2, 1⟩, kScaleTT mi x.arr x.s0 x.s1 x.s2 ix c⟩]
  else if x.n1 ≤ 1024 ∨ x.n2 ≤ 1024 then
    if x.n2 % 32 < x.n1 % 32 then [⟨⟨n, x.n1, 1⟩, ⟨x.n2, 1, 1⟩, kScaleBT mi x.arr x.s0 x.s1 x.s2 ix c⟩]
    else [⟨⟨n, x.n2, 1⟩, ⟨x.n1, 1, 1⟩, kScaleBT mi x.arr x.s0 x.s2 x.s1 ix c⟩]
  else []

/-- The body common to the kernels of cuda/RtensorUtils.cu:282-316 after `offs` is known. -/
def givensBody [Add α] [Sub α] [Mul α] (mi : Buf Int) (arr s0 ix c blk : Nat) (offs : Nat) : Thr α Unit := do
  let ix0 ← ldIx mi (ix + blk * 2)
  let ix1 ← ldIx mi (ix + (blk * 2 + 1))
  let c0 ← Thr.rd (c + blk * 2)
  let c1 ← Thr.rd (c + (blk * 2 + 1))
  let p0 ← addr (arr + (ix0 * s0 + offs))
  let p1 ← addr (arr + (ix1 * s0 + offs))
  let t0 ← Thr.rd p0
  let t1 ← Thr.rd p1
  Thr.wr p0 (c0 * t0 + c1 * t1)
  Thr.wr p1 (c0 * t1 - c1 * t0)

/-- cuda/RtensorUtils.cu:282-292 `GivensSomeSlices_kernel_t`. -/
def kGivensT [Add α] [Sub α] [Mul α] (mi : Buf Int) (arr s0 s1 ix c : Nat) : D3 → D3 → Thr α Unit := fun b t => givensBody mi arr s0 ix c b.x (t.x * s1)

/-- cuda/RtensorUtils.cu:294-304 `GivensSomeSlices_kernel_tt`. -/
def kGivensTT [Add α] [Sub α] [Mul α] (mi : Buf Int) (arr s0 s1 s2 ix c : Nat) : D3 → D3 → Thr α Unit := fun b t => givensBody mi arr s0 ix c b.x (t.x * s1 + t.y * s2)

/-- cuda/RtensorUtils.cu:306-316 `GivensSomeSlices_kernel_bt`: `offs` has `blockIdx.x` where `blockIdx.y` is meant. -/
def kGivensBT [Add α] [Sub α] [Mul α] (mi : Buf Int) (arr s0 s1 s2 ix c : Nat) : D3 → D3 → Thr α Unit := fun b t => givensBody mi arr s0 ix c b.x (b.x * s1 + t.x * s2)

/-- cuda/RtensorUtils.cu:526-534 `GivensSomeSlices_cu(x,indices,coeffs)` for a matrix. -/
def givens2 [Add α] [Sub α] [Mul α] (mi : Buf Int) (x : RV2) (n ix c : Nat) : List (Launch α) :=
  if x.n1 ≤ 1024 then [⟨⟨n, 1, 1⟩, ⟨x.n1, 1, 1⟩, kGivensT mi x.arr x.s0 x.s1 ix c⟩] else []

/-- cuda/RtensorUtils.cu:536-556 `GivensSomeSlices_cu(x,indices,coeffs)` for three axes. -/
def givens3 [Add α] [Sub α] [Mul α] (mi : Buf Int) (x : RV3) (n ix c : Nat) : List (Launch α) :=
  if x.n1 * x.n2 ≤ 1024 then [⟨⟨n, 1, 1⟩, ⟨x.n1, x.n2, 1⟩, kGivensTT mi x.arr x.s0 x.s1 x.s2 ix c⟩]
  else if x.n1 ≤ 1024 ∨ x.n2 ≤ 1024 then
    if x.n2 % 32 < x.n1 % 32 then [⟨⟨n, x.n1, 1⟩, ⟨x.n2, 1, 1⟩, kGivensBT mi x.arr x.s0 x.s1 x.s2 ix c⟩]
    else [⟨⟨n, x.n2, 1⟩, ⟨x.n1, 1, 1⟩, kGivensBT mi x.arr x.s0 x.s2 x.s1 ix c⟩]
  else []

/-- cuda/RtensorUtils.cu:322-326 `Rtensor_add_ReLU_kernel`: `=`, not `+=`; `pos v` is `v>0`. -/
def kReLU [Mul α] (pos : α → Bool) (rarr xarr : Nat) (alpha : α) : D3 → D3 → Thr α Unit := fun b t => do
  let v ← Thr.rd (xarr + (b.x * 32 + t.x))
  if pos v then Thr.wr (rarr + (b.x * 32 + t.x)) v else Thr.wr (rarr + (b.x * 32 + t.x)) (alpha * v)

/-- cuda/RtensorUtils.cu:328-334 `Rtensor_add_ReLU_back_kernel`. -/
def kReLUBack [Mul α] (pos : α → Bool) (rarr garr xarr : Nat) (alpha : α) : D3 → D3 → Thr α Unit := fun b t => do
  let v ← Thr.rd (garr + (b.x * 32 + t.x))
  let x ← Thr.rd (xarr + (b.x * 32 + t.x))
  if pos x then Thr.wr (rarr + (b.x * 32 + t.x)) v else Thr.wr (rarr + (b.x * 32 + t.x)) (alpha * v)

/-- cuda/RtensorUtils.cu:560-568 `Rtensor_add_ReLU_cu(r,x,alpha)`. -/
def addReLU [Mul α] (pos : α → Bool) (r x : RV1) (alpha : α) : Res (List (Launch α)) := do
  Res.assrt (r.s0 = 1)
  Res.assrt (x.s0 = 1)
  Res.assrt (r.n0 = x.n0)
  .ok ((if 32 ≤ r.n0 then [⟨⟨r.n0 / 32, 1, 1⟩, ⟨32, 1, 1⟩, kReLU pos r.arr x.arr alpha⟩] else []) ++
    (if 0 < r.n0 % 32 then [⟨⟨1, 1, 1⟩, ⟨r.n0 % 32, 1, 1⟩, kReLU pos (r.arr + r.n0 / 32 * 32) (x.arr + r.n0 / 32 * 32) alpha⟩] else []))

/-- cuda/RtensorUtils.cu:570-581 `Rtensor_add_ReLU_back_cu(r,g,x,alpha)`. -/
def addReLUBack [Mul α] (pos : α → Bool) (r g x : RV1) (alpha : α) : Res (List (Launch α)) := do
  Res.assrt (r.s0 = 1)
  Res.assrt (x.s0 = 1)
  Res.assrt (g.s0 = 1)
  Res.assrt (r.n0 = x.n0)
  Res.assrt (g.n0 = x.n0)
  .ok ((if 32 ≤ r.n0 then [⟨⟨r.n0 / 32, 1, 1⟩, ⟨32, 1, 1⟩, kReLUBack pos r.arr g.arr x.arr alpha⟩] else []) ++
    (if 0 < r.n0 % 32 then [⟨⟨1, 1, 1⟩, ⟨r.n0 % 32, 1, 1⟩, kReLUBack pos (r.arr + r.n0 / 32 * 32) (g.arr + r.n0 / 32 * 32) (x.arr + r.n0 / 32 * 32) alpha⟩] else []))

/-! ### Folding an axis -/

/-- `int a=1; while(a<n) a*=2; a/=2;` (tensor_views/Rtensor3_view.hpp:376, cuda/RtensorReduce.cu:56), with `fuel` for the loop. -/
def top (n : Nat) : Nat → Nat → Nat
  | 0, a => a / 2
  | fuel + 1, a => if a < n then top n fuel (a * 2) else a / 2

/-- `for(;a>0;a/=2)` (tensor_views/Rtensor3_view.hpp:381-382, cuda/RtensorReduce.cu:61-64). -/
def halves (f : Nat → List (Launch α)) : Nat → Nat → List (Launch α)
  | 0, _ => []
  | fuel + 1, a => if 0 < a then f a ++ halves f fuel (a / 2) else []

/-- tensor_views/Rtensor3_view.hpp:374-384 `reduce1_destructively()`, the branch for regular views on the GPU. -/
def reduce1 [Add α] (x : RV3) : List (Launch α) :=
  let a := top x.n1 x.n1 1
  batchedAdd x.arr (x.arr + a * x.s1) x.n0 x.s0 ((x.n1 - a) * x.s1) x.s2 ++
    halves (fun a => batchedAdd x.arr (x.arr + a * x.s1) x.n0 x.s0 (a * x.s1) x.s2) x.n1 (a / 2)

/-- cuda/RtensorReduce.cu:27-29 `BatchedFold_kernel`. -/
def kFold0 [Add α] (arr sb s0 offs : Nat) : D3 → D3 → Thr α Unit := fun b t => do
  let v ← Thr.rd (arr + (b.x * sb + t.x * s0 + offs))
  Thr.inc (arr + (b.x * sb + t.x * s0)) v

/-- cuda/RtensorReduce.cu:32-34 `BatchedFold_kernel1`. -/
def kFold1 [Add α] (arr sb s0 s1 offs : Nat) : D3 → D3 → Thr α Unit := fun b t => do
  let v ← Thr.rd (arr + (b.x * sb + b.y * s0 + t.x * s1 + offs))
  Thr.inc (arr + (b.x * sb + b.y * s0 + t.x * s1)) v

/-- cuda/RtensorReduce.cu:41-52 `BatchedFold(arr,b,sb,n,s,offs)`: in the last launch `arr` is not moved, and the offset is. -/
def batchedFold [Add α] (arr b sb n s offs : Nat) : List (Launch α) :=
  if n ≤ 1024 then [⟨⟨b, 1, 1⟩, ⟨n, 1, 1⟩, kFold0 arr sb s offs⟩]
  else ⟨⟨b, n / 1024, 1⟩, ⟨1024, 1, 1⟩, kFold1 arr sb (s * 1024) s offs⟩ ::
    (if 0 < n % 1024 then [⟨⟨b, 1, 1⟩, ⟨n % 1024, 1, 1⟩, kFold0 arr sb s (offs + n / 1024 * 1024 * s)⟩] else [])

/-- cuda/RtensorReduce.cu:55-66 `InplaceReduce1_cu(x)`. -/
def inplaceReduce1 [Add α] (x : RV3) : List (Launch α) :=
  let a := top x.n1 x.n1 1
  batchedFold x.arr x.n0 x.s0 ((x.n1 - a) * x.n2) x.s2 (a * x.n2) ++
    halves (fun a => batchedFold x.arr x.n0 x.s0 (a * x.n2) x.s2 (a * x.n2)) x.n1 (a / 2)

end Gpu

end Cnine
