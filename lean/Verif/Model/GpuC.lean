import Verif.Model.Gpu
import Verif.Model.Rmask

/-!
# Complex products, weighted sums of rows and rectified units on the GPU

cuda/BasicCtensorProducts.cu, cuda/TensorView_accumulators.cu and cuda/RtensorPackUtils.cu with the functions that call them.  A launch is a value of `Launch`; the functions
give the list of launches of a call, or throw.  `float` is an arbitrary algebraic structure, `int` has no bounds.  Floats that hold integers (the table of
cuda/TensorView_accumulators.cu) hold them exactly, which is so below 2^24.  The real and imaginary parts are cells of one memory, reached from `arr` and `arrc`.
-/

namespace Cnine

variable {α : Type}

namespace GpuC

open Gpu Thr

/-- cuda/BasicCtensorProducts.cu:36-41 (= 55-60 = 74-79): what a thread of the three kernels does for the indices `i0`, `i1`, `i2`, `i3`. -/
def prod4K [Add α] [Sub α] [Mul α] (x y r : CV4) (i0 i1 i2 i3 : Nat) : Thr α Unit := do
  let xr ← rd (x.arr + (i0 * x.s0 + i1 * x.s1 + i2 * x.s2 + i3 * x.s3))
  let xi ← rd (x.arrc + (i0 * x.s0 + i1 * x.s1 + i2 * x.s2 + i3 * x.s3))
  let yr ← rd (y.arr + (i0 * y.s0 + i1 * y.s1 + i2 * y.s2 + i3 * y.s3))
  let yi ← rd (y.arrc + (i0 * y.s0 + i1 * y.s1 + i2 * y.s2 + i3 * y.s3))
  inc (r.arr + (i0 * r.s0 + i1 * r.s1 + i2 * r.s2 + i3 * r.s3)) (xr * yr - xi * yi)
  inc (r.arrc + (i0 * r.s0 + i1 * r.s1 + i2 * r.s2 + i3 * r.s3)) (xr * yi + xi * yr)

/-- cuda/BasicCtensorProducts.cu:160-193 `BasicCproduct_4_cu` with the indices of the three kernels (31-34, 50-53, 69-72): a tensor that is too large only prints. -/
def prod4L [Add α] [Sub α] [Mul α] (x y r : CV4) (n0 n1 n2 n3 : Nat) : List (Launch α) :=
  if n1 * n2 * n3 ≤ 1024 then [⟨⟨n0, 1, 1⟩, ⟨n1, n2, n3⟩, fun b t => prod4K x y r b.x t.x t.y t.z⟩]
  else if n2 * n3 ≤ 1024 then [⟨⟨n0, n1, 1⟩, ⟨n2, n3, 1⟩, fun b t => prod4K x y r b.x b.y t.x t.y⟩]
  else if n3 ≤ 1024 then [⟨⟨n0, n1, n2⟩, ⟨n3, 1, 1⟩, fun b t => prod4K x y r b.x b.y b.z t.x⟩]
  else []

/-- cuda/BasicCtensorProducts.cu:91-104 (= 115-128): what a thread of the two kernels does for the indices `i0` and `i1`. -/
def prod21K [Zero α] [Add α] [Sub α] [Mul α] (x y : CV3) (r : CV2) (n2 i0 i1 : Nat) : Thr α Unit := do
  let t ← Thr.loop n2 ((0 : α), (0 : α)) fun i2 t => do
    let xr ← rd (x.arr + (i0 * x.s0 + i1 * x.s1 + i2 * x.s2))
    let xi ← rd (x.arrc + (i0 * x.s0 + i1 * x.s1 + i2 * x.s2))
    let yr ← rd (y.arr + (i0 * y.s0 + i1 * y.s1 + i2 * y.s2))
    let yi ← rd (y.arrc + (i0 * y.s0 + i1 * y.s1 + i2 * y.s2))
    pure (t.1 + (xr * yr - xi * yi), t.2 + (xr * yi + xi * yr))
  inc (r.arr + (i0 * r.s0 + i1 * r.s1)) t.1
  inc (r.arrc + (i0 * r.s0 + i1 * r.s1)) t.2

/-- cuda/BasicCtensorProducts.cu:196-220 `BasicCproduct_2_1_cu` with the indices of the two kernels (88-89, 112-113): a matrix that is too large only prints. -/
def prod21L [Zero α] [Add α] [Sub α] [Mul α] (x y : CV3) (r : CV2) (n0 n1 n2 : Nat) : List (Launch α) :=
  if n0 * n1 ≤ 1024 then [⟨⟨1, 1, 1⟩, ⟨n0, n1, 1⟩, fun _ t => prod21K x y r n2 t.x t.y⟩]
  else if n1 ≤ 1024 then [⟨⟨n0, 1, 1⟩, ⟨n1, 1, 1⟩, fun b t => prod21K x y r n2 b.x t.x⟩]
  else []

/-- tensor_views/Ctensor4_view.hpp:145-157 `add_expand_2(x,y)` on the GPU, through tensor_views/BasicCtensorProducts.hpp:74-77. -/
def addExpand2 [Add α] [Sub α] [Mul α] (r : CV4) (x y : CV3) : Res (List (Launch α)) := do
  Res.assrt (x.n0 = r.n0)
  Res.assrt (x.n1 = r.n1)
  Res.assrt (x.n2 = r.n3)
  Res.assrt (y.n0 = x.n1)
  Res.assrt (y.n1 = r.n2)
  Res.assrt (y.n2 = x.n2)
  .ok (prod4L ⟨x.arr, x.arrc, 0, 0, 0, 0, x.s0, x.s1, 0, x.s2⟩ ⟨y.arr, y.arrc, 0, 0, 0, 0, 0, y.s0, y.s1, y.s2⟩ r r.n0 r.n1 r.n2 r.n3)

/-- tensor_views/Ctensor3_view.hpp:263-274 `add_contract_aib_aib_ab_to(r,y)` on the GPU, through tensor_views/BasicCtensorProducts.hpp:125-128. -/
def addContractTo [Zero α] [Add α] [Sub α] [Mul α] (x : CV3) (r : CV2) (y : CV3) : Res (List (Launch α)) := do
  Res.assrt (r.n0 = x.n0)
  Res.assrt (r.n1 = x.n2)
  Res.assrt (y.n0 = x.n0)
  Res.assrt (y.n1 = x.n1)
  Res.assrt (y.n2 = x.n2)
  .ok (prod21L ⟨x.arr, x.arrc, 0, 0, 0, x.s0, x.s2, x.s1⟩ ⟨y.arr, y.arrc, 0, 0, 0, y.s0, y.s2, y.s1⟩ r x.n0 x.n2 x.n1)

/-- include/Cnine_base_helpers.hpp:12-14 `roundup(x,32)`: 32 for `x=0`. -/
def roundup32 (x : Nat) : Nat := ((x - 1) / 32 + 1) * 32

/-- cuda/BasicCtensorProducts.cu:131-142 `Ctensor2_add_otimes_kernel`, and with `conj` 144-155 `Ctensor2_add_otimesc_kernel`; `blockDim.x` is 32. -/
def otimesK [Add α] [Sub α] [Mul α] [Neg α] (conj : Bool) (r x y : CV2) (c : α) (b t : Nat) : Thr α Unit := do
  let k := b * 32 + t
  if r.n1 = 0 then fail else
  let i0 := k / r.n1
  let i1 := k % r.n1
  if i0 ≥ r.n0 then pure () else do
    let xr ← rd (x.arr + (i0 * x.s0 + i1 * x.s1))
    let xi ← rd (x.arrc + (i0 * x.s0 + i1 * x.s1))
    let yr ← rd (y.arr + (i0 * y.s0 + i1 * y.s1))
    let yi ← rd (y.arrc + (i0 * y.s0 + i1 * y.s1))
    inc (r.arr + (i0 * r.s0 + i1 * r.s1)) ((if conj then xr * yr + xi * yi else xr * yr - xi * yi) * c)
    inc (r.arrc + (i0 * r.s0 + i1 * r.s1)) ((if conj then -xr * yi + xi * yr else xr * yi + xi * yr) * c)

/-- cuda/BasicCtensorProducts.cu:223-230 `Ctensor2_add_otimes_cu` and 232-239 `Ctensor2_add_otimesc_cu`. -/
def addOtimes [Add α] [Sub α] [Mul α] [Neg α] (conj : Bool) (r x y : CV2) (c : α) : Res (List (Launch α)) := do
  Res.assrt (r.n0 = x.n0)
  Res.assrt (r.n0 = y.n0)
  Res.assrt (r.n1 = x.n1)
  Res.assrt (r.n1 = y.n1)
  .ok [⟨⟨roundup32 (r.n0 * r.n1) / 32, 1, 1⟩, ⟨32, 1, 1⟩, fun b t => otimesK conj r x y c b.x t.x⟩]

/-! ## Weighted sums of rows -/

/-- include/Rmask1.hpp:139-152: the table `arr` and the starts `ptr` that `prepare` builds.  A float of the table holds an integer (`inl`) or a weight (`inr`). -/
def prepare (lists : OMap Int (List (Int × α))) : List (Int ⊕ α) × List Nat :=
  lists.foldl (fun s p => (s.1 ++ (.inl p.1 :: .inl p.2.length :: p.2.flatMap fun q => [.inl q.1, .inr q.2]), s.2 ++ [s.1.length])) ([], [])

/-- `(int)tbl[i]` (cuda/TensorView_accumulators.cu:39, 40, 49). -/
def intAt (tbl : List (Int ⊕ α)) (i : Nat) : Thr α Int :=
  match tbl[i]? with
  | some (.inl k) => pure k
  | _ => fail

/-- `tbl[i]` (cuda/TensorView_accumulators.cu:50). -/
def valAt (tbl : List (Int ⊕ α)) (i : Nat) : Thr α α :=
  match tbl[i]? with
  | some (.inr v) => pure v
  | _ => fail

/-- `arr+k*stride` (cuda/TensorView_accumulators.cu:40, 49). -/
def ptrAt (arr : Nat) (k : Int) (stride : Nat) : Thr α Nat :=
  if (arr : Int) + k * stride < 0 then fail else pure ((arr : Int) + k * stride).toNat

/-- `shared[p]` (cuda/TensorView_accumulators.cu:53, 61): a slot that was not written holds no value. -/
def slot {β : Type} (sh : Nat → Option β) (p : Nat) : Thr β β :=
  match sh p with
  | some v => pure v
  | none => fail

/-- `for(int j=0; j<lines; j++) f(j); if(t<tail) f(lines);` (cuda/TensorView_accumulators.cu:42-45, 52-55, 60-63). -/
def each {β : Type} (lines tail t : Nat) (s : β) (f : Nat → β → Thr α β) : Thr α β := do
  let s ← Thr.loop lines s f
  if t < tail then f lines s else pure s

/-- cuda/TensorView_accumulators.cu:29-65 `accumulator_kernel`.  Thread `t` uses the slots `shared[j*32+t]` only, so they are kept with the thread and `__syncthreads()` is left
out. -/
def accK [Add α] [Mul α] (rarr xarr : Nat) (ptr : List Nat) (tbl : List (Int ⊕ α)) (rstride xstride n0 : Nat) (b t : Nat) : Thr α Unit := do
  let lines := n0 / 32
  let tail := n0 - lines * 32
  match ptr[b]? with
  | none => fail
  | some h => do
    let offs := h + 2
    let n ← intAt tbl (offs - 1)
    let k ← intAt tbl (offs - 2)
    let target ← ptrAt rarr k rstride
    let sh ← each lines tail t (fun _ : Nat => (none : Option α)) fun j sh => do
      let v ← rd (target + (j * 32 + t))
      pure fun p : Nat => if p = j * 32 + t then some v else sh p
    let sh ← Thr.loop n.toNat sh fun i sh => do
      let k ← intAt tbl (offs + 2 * i)
      let src ← ptrAt xarr k xstride
      let c ← valAt tbl (offs + 2 * i + 1)
      each lines tail t sh fun j sh => do
        let v ← rd (src + (j * 32 + t))
        let u ← slot sh (j * 32 + t)
        pure fun p : Nat => if p = j * 32 + t then some (u + c * v) else sh p
    each lines tail t () fun j _ => do
      let u ← slot sh (j * 32 + t)
      wr (target + (j * 32 + t)) u

/-- cuda/TensorView_accumulators.cu:70-89 `Ctensor2view_accumulator_cu`, called by tensor_views/TensorView_accumulator.hpp:41-45.  The number of floats of a row that is
passed is `x.n1`. -/
def accumulate [Add α] [Mul α] (r x : CV2) (mask : RMCore α) : Res (List (Launch α)) := do
  let tbl := prepare mask.lists
  Res.assrt (r.arrc = r.arr + 1)
  Res.assrt (x.arrc = x.arr + 1)
  Res.assrt (r.s1 = 2)
  Res.assrt (x.s1 = 2)
  Res.assrt (x.n1 = r.n1)
  Res.assrt (roundup32 (x.n1 * 2) / 32 ≤ 384)
  .ok [⟨⟨mask.lists.length, 1, 1⟩, ⟨32, 1, 1⟩, fun b t => accK r.arr x.arr tbl.2 tbl.1 r.s0 x.s0 x.n1 b.x t.x⟩]

/-! ## Rectified units -/

/-- cuda/RtensorPackUtils.cu:30-34 `RtensorPack_add_ReLU_kernel`. -/
def reluK [Mul α] [Zero α] [LT α] [DecidableLT α] (rarr xarr : Nat) (alpha : α) (b t : Nat) : Thr α Unit := do
  let v ← rd (xarr + (b * 32 + t))
  if 0 < v then wr (rarr + (b * 32 + t)) v else wr (rarr + (b * 32 + t)) (alpha * v)

/-- cuda/RtensorPackUtils.cu:36-42 `RtensorPack_add_ReLU_back_kernel`. -/
def reluBackK [Mul α] [Zero α] [LT α] [DecidableLT α] (rarr garr xarr : Nat) (alpha : α) (b t : Nat) : Thr α Unit := do
  let v ← rd (garr + (b * 32 + t))
  let x ← rd (xarr + (b * 32 + t))
  if 0 < x then wr (rarr + (b * 32 + t)) v else wr (rarr + (b * 32 + t)) (alpha * v)

/-- cuda/RtensorPackUtils.cu:52-58 `RtensorPack_add_ReLU_cu` for packs of which `arrg` points to the cells `r` and `x` and `tail` is `rt` and `xt`, called by
legacy/tensor/RtensorPack.hpp:586-591. -/
def addRelu [Mul α] [Zero α] [LT α] [DecidableLT α] (r rt x xt : Nat) (alpha : α) : Res (List (Launch α)) := do
  Res.assrt (xt = rt)
  Res.assrt (rt = xt)
  .ok ((if rt ≥ 32 then [⟨⟨rt / 32, 1, 1⟩, ⟨32, 1, 1⟩, fun b t => reluK r x alpha b.x t.x⟩] else []) ++
    if rt % 32 > 0 then [⟨⟨1, 1, 1⟩, ⟨rt % 32, 1, 1⟩, fun b t => reluK (r + rt / 32 * 32) (x + rt / 32 * 32) alpha b.x t.x⟩] else [])

/-- cuda/RtensorPackUtils.cu:60-68 `RtensorPack_add_ReLU_back_cu`, called by legacy/tensor/RtensorPack.hpp:593-599. -/
def addReluBack [Mul α] [Zero α] [LT α] [DecidableLT α] (r rt g gt x xt : Nat) (alpha : α) : Res (List (Launch α)) := do
  Res.assrt (xt = rt)
  Res.assrt (rt = xt)
  Res.assrt (rt = gt)
  .ok ((if rt ≥ 32 then [⟨⟨rt / 32, 1, 1⟩, ⟨32, 1, 1⟩, fun b t => reluBackK r g x alpha b.x t.x⟩] else []) ++
    if rt % 32 > 0 then [⟨⟨1, 1, 1⟩, ⟨rt % 32, 1, 1⟩, fun b t => reluBackK (r + rt / 32 * 32) (g + rt / 32 * 32) (x + rt / 32 * 32) alpha b.x t.x⟩] else [])

/-- legacy/tensor/RtensorPack.hpp:586-589 `add_ReLU(x,alpha)` on the CPU. -/
def addReluCpu [Add α] [Mul α] [Zero α] [LT α] [DecidableLT α] (r rt x xt : Nat) (alpha : α) (m : Buf α) : Res (Buf α) := do
  Res.assrt (xt = rt)
  Cnine.loop rt m fun i m => do
    let v ← m.read (x + i)
    if 0 < v then incCell m (r + i) v else incCell m (r + i) (alpha * v)

/-- legacy/tensor/RtensorPack.hpp:593-597 `add_ReLU_back(g,x,alpha)` on the CPU; the size of `g` is not looked at. -/
def addReluBackCpu [Add α] [Mul α] [Zero α] [LT α] [DecidableLT α] (r rt g x xt : Nat) (alpha : α) (m : Buf α) : Res (Buf α) := do
  Res.assrt (xt = rt)
  Cnine.loop rt m fun i m => do
    let v ← m.read (x + i)
    let w ← m.read (g + i)
    if 0 < v then incCell m (r + i) w else incCell m (r + i) (w * alpha)

end GpuC

end Cnine
