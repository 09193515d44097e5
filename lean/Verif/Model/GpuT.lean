import Verif.Model.GpuR

/-!
# The kernels of `TensorView`

cuda/TensorView_add.cu, cuda/TensorView_assign.cu and cuda/TensorView_inc.cu, which differ in the statement of the kernels only.  Line numbers are those of
cuda/TensorView_add.cu.
-/

namespace Cnine

variable {α : Type}

namespace Gpu

/-- The statements of the kernels: `r=x`, `r+=x` and `r+=c` (cuda/TensorView_assign.cu:27, cuda/TensorView_add.cu:27, cuda/TensorView_inc.cu:27). -/
inductive Op (α : Type)
  | assign
  | add
  | inc (c : α)

/-- The statement for the cells `r` and `x` (cuda/TensorView_assign.cu:27, cuda/TensorView_add.cu:27, cuda/TensorView_inc.cu:27); `inc` does not use `x`. -/
def Op.thr [Add α] (k : Op α) (r x : Nat) : Thr α Unit :=
  match k with
  | .assign => do
    let v ← Thr.rd x
    Thr.wr r v
  | .add => do
    let v ← Thr.rd x
    Thr.inc r v
  | .inc c => Thr.inc r c

section kernels

variable [Add α] (k : Op α) (rarr xarr : Nat)

/-- cuda/TensorView_add.cu:25-28 `TensorView_add_kernel_t`. -/
def jT (rs0 xs0 : Nat) : D3 → D3 → Thr α Unit := fun _ t => k.thr (rarr + t.x * rs0) (xarr + t.x * xs0)

/-- cuda/TensorView_add.cu:30-33 `TensorView_add_kernel_tt`. -/
def jTT (rs0 rs1 xs0 xs1 : Nat) : D3 → D3 → Thr α Unit := fun _ t => k.thr (rarr + (t.x * rs0 + t.y * rs1)) (xarr + (t.x * xs0 + t.y * xs1))

/-- cuda/TensorView_add.cu:35-38 `TensorView_add_kernel_ttt`. -/
def jTTT (rs0 rs1 rs2 xs0 xs1 xs2 : Nat) : D3 → D3 → Thr α Unit := fun _ t =>
  k.thr (rarr + (t.x * rs0 + t.y * rs1 + t.z * rs2)) (xarr + (t.x * xs0 + t.y * xs1 + t.z * xs2))

/-- cuda/TensorView_add.cu:40-43 `TensorView_add_kernel_bt`. -/
def jBT (rs0 rs1 xs0 xs1 : Nat) : D3 → D3 → Thr α Unit := fun b t => k.thr (rarr + (b.x * rs0 + t.x * rs1)) (xarr + (b.x * xs0 + t.x * xs1))

/-- cuda/TensorView_add.cu:45-48 `TensorView_add_kernel_btt`. -/
def jBTT (rs0 rs1 rs2 xs0 xs1 xs2 : Nat) : D3 → D3 → Thr α Unit := fun b t =>
  k.thr (rarr + (b.x * rs0 + t.x * rs1 + t.y * rs2)) (xarr + (b.x * xs0 + t.x * xs1 + t.y * xs2))

/-- cuda/TensorView_add.cu:50-53 `TensorView_add_kernel_bbt`. -/
def jBBT (rs0 rs1 rs2 xs0 xs1 xs2 : Nat) : D3 → D3 → Thr α Unit := fun b t =>
  k.thr (rarr + (b.x * rs0 + b.y * rs1 + t.x * rs2)) (xarr + (b.x * xs0 + b.y * xs1 + t.x * xs2))

/-- cuda/TensorView_add.cu:55-58 `TensorView_add_kernel_bbbt`. -/
def jBBBT (rs0 rs1 rs2 rs3 xs0 xs1 xs2 xs3 : Nat) : D3 → D3 → Thr α Unit := fun b t =>
  k.thr (rarr + (b.x * rs0 + b.y * rs1 + b.z * rs2 + t.x * rs3)) (xarr + (b.x * xs0 + b.y * xs1 + b.z * xs2 + t.x * xs3))

end kernels

/-- cuda/TensorView_add.cu:69-74, one axis: the second launch starts at the first entry. -/
def tv1 [Add α] (k : Op α) (r x : RV1) : List (Launch α) :=
  (if 1024 < r.n0 then [⟨⟨r.n0 / 1024, 1, 1⟩, ⟨1024, 1, 1⟩, jBT k r.arr x.arr (1024 * r.s0) r.s0 (1024 * x.s0) x.s0⟩] else []) ++
  (if 0 < r.n0 % 1024 then [⟨⟨1, 1, 1⟩, ⟨r.n0 % 1024, 1, 1⟩, jT k r.arr x.arr r.s0 x.s0⟩] else [])

/-- cuda/TensorView_add.cu:76-94, two axes: the last launch starts at the first column. -/
def tv2 [Add α] (k : Op α) (r x : RV2) : List (Launch α) :=
  if r.n0 * r.n1 < 128 then [⟨⟨1, 1, 1⟩, ⟨r.n0, r.n1, 1⟩, jTT k r.arr x.arr r.s0 r.s1 x.s0 x.s1⟩]
  else if r.n1 ≤ 1024 then [⟨⟨r.n0, 1, 1⟩, ⟨r.n1, 1, 1⟩, jBT k r.arr x.arr r.s0 r.s1 x.s0 x.s1⟩]
  else ⟨⟨r.n0, r.n1 / 1024, 1⟩, ⟨1024, 1, 1⟩, jBBT k r.arr x.arr r.s0 (1024 * r.s1) r.s1 x.s0 (1024 * x.s1) x.s1⟩ ::
    (if 0 < r.n1 % 1024 then [⟨⟨r.n0, 1, 1⟩, ⟨r.n1 % 1024, 1, 1⟩, jBT k r.arr x.arr r.s0 r.s1 x.s0 x.s1⟩] else [])

/-- cuda/TensorView_add.cu:96-123, three axes. -/
def tv3 [Add α] (k : Op α) (r x : RV3) : List (Launch α) :=
  if r.n0 * r.n1 * r.n2 < 128 then [⟨⟨1, 1, 1⟩, ⟨r.n0, r.n1, r.n2⟩, jTTT k r.arr x.arr r.s0 r.s1 r.s2 x.s0 x.s1 x.s2⟩]
  else if r.n1 * r.n2 < 128 then [⟨⟨r.n0, 1, 1⟩, ⟨r.n1, r.n2, 1⟩, jBTT k r.arr x.arr r.s0 r.s1 r.s2 x.s0 x.s1 x.s2⟩]
  else if r.n2 ≤ 1024 then [⟨⟨r.n0, r.n1, 1⟩, ⟨r.n2, 1, 1⟩, jBBT k r.arr x.arr r.s0 r.s1 r.s2 x.s0 x.s1 x.s2⟩]
  else ⟨⟨r.n0, r.n1, r.n2 / 1024⟩, ⟨1024, 1, 1⟩, jBBBT k r.arr x.arr r.s0 r.s1 (1024 * r.s2) r.s2 x.s0 x.s1 (1024 * x.s2) x.s2⟩ ::
    (if 0 < r.n2 % 1024 then [⟨⟨r.n0, r.n1, 1⟩, ⟨r.n2 % 1024, 1, 1⟩, jBBT k r.arr x.arr r.s0 r.s1 r.s2 x.s0 x.s1 x.s2⟩] else [])

end Gpu

end Cnine
