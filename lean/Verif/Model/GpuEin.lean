import Verif.Model.Gpu

/-!
# Products of tensors on the GPU

cuda/RtensorEinsumProducts.cu: `r+=x*y` for up to three indices of the result and up to two indices that are summed.
-/

namespace Cnine

variable {α : Type}

namespace Gpu

/-- A pointer with strides, arguments of the functions of cuda/RtensorEinsumProducts.cu:258-451 such as `xarr,x0,x1,x2,x3,x4`. -/
structure Ptr where
  arr : Nat
  s0 : Nat := 0
  s1 : Nat := 0
  s2 : Nat := 0
  s3 : Nat := 0
  s4 : Nat := 0

/-- cuda/RtensorEinsumProducts.cu:25-36 `REP_getix<TIX>(i0)`. -/
def ix1 : Nat → D3 → D3 → Nat
  | 0, b, _ => b.x
  | _, _, t => t.x

/-- cuda/RtensorEinsumProducts.cu:39-58 `REP_getix<TIX>(i0,i1)`. -/
def ix2 : Nat → D3 → D3 → Nat × Nat
  | 0, b, _ => (b.x, b.y)
  | 1, b, t => (b.x, t.x)
  | _, _, t => (t.x, t.y)

/-- cuda/RtensorEinsumProducts.cu:61-90 `REP_getix<TIX>(i0,i1,i2)`. -/
def ix3 : Nat → D3 → D3 → Nat × Nat × Nat
  | 0, b, _ => (b.x, b.y, b.z)
  | 1, b, t => (b.x, b.y, t.x)
  | 2, b, t => (b.x, t.x, t.y)
  | _, _, t => (t.x, t.y, t.z)

section

variable [Zero α] [Add α] [Mul α]

/-- `t+=xarr[p]*yarr[q]` (cuda/RtensorEinsumProducts.cu:140). -/
def fma (p q : Nat) (t : α) : Thr α α := do
  let u ← Thr.rd p
  let v ← Thr.rd q
  pure (t + u * v)

/-- `rarr[dst]+=xarr[p]*yarr[q]` (cuda/RtensorEinsumProducts.cu:98, 106, 116, 126). -/
def ein0 (p q dst : Nat) : Thr α Unit := do
  let u ← Thr.rd p
  let v ← Thr.rd q
  Thr.inc dst (u * v)

/-- The loop over `j0` (cuda/RtensorEinsumProducts.cu:138-141, 152-155, 166-169, 181-184). -/
def ein1 (J0 : Nat) (p q : Nat → Nat) (dst : Nat) : Thr α Unit := do
  let t ← Thr.loop J0 (0 : α) fun j0 t => fma (p j0) (q j0) t
  Thr.inc dst t

/-- The loops over `j0` and `j1` (cuda/RtensorEinsumProducts.cu:196-200, 211-215, 226-230, 242-246). -/
def ein2 (J0 J1 : Nat) (p q : Nat → Nat → Nat) (dst : Nat) : Thr α Unit := do
  let t ← Thr.loop J0 (0 : α) fun j0 t => Thr.loop J1 t fun j1 t => fma (p j0 j1) (q j0 j1) t
  Thr.inc dst t

/-- cuda/RtensorEinsumProducts.cu:96-99. -/
def ein00K (x y r : Ptr) (_ _ : D3) : Thr α Unit := ein0 x.arr y.arr r.arr

/-- cuda/RtensorEinsumProducts.cu:101-107. -/
def ein10K (tix : Nat) (x y r : Ptr) (b t : D3) : Thr α Unit :=
  let i0 := ix1 tix b t
  ein0 (x.arr + i0 * x.s0) (y.arr + i0 * y.s0) (r.arr + i0 * r.s0)

/-- cuda/RtensorEinsumProducts.cu:109-117. -/
def ein20K (tix : Nat) (x y r : Ptr) (b t : D3) : Thr α Unit :=
  let (i0, i1) := ix2 tix b t
  ein0 (x.arr + (i0 * x.s0 + i1 * x.s1)) (y.arr + (i0 * y.s0 + i1 * y.s1)) (r.arr + (i0 * r.s0 + i1 * r.s1))

/-- cuda/RtensorEinsumProducts.cu:119-127. -/
def ein30K (tix : Nat) (x y r : Ptr) (b t : D3) : Thr α Unit :=
  let (i0, i1, i2) := ix3 tix b t
  ein0 (x.arr + (i0 * x.s0 + i1 * x.s1 + i2 * x.s2)) (y.arr + (i0 * y.s0 + i1 * y.s1 + i2 * y.s2)) (r.arr + (i0 * r.s0 + i1 * r.s1 + i2 * r.s2))

/-- cuda/RtensorEinsumProducts.cu:133-142. -/
def ein01K (x y r : Ptr) (J0 : Nat) (_ _ : D3) : Thr α Unit := ein1 J0 (fun j0 => x.arr + j0 * x.s0) (fun j0 => y.arr + j0 * y.s0) r.arr

/-- cuda/RtensorEinsumProducts.cu:144-156. -/
def ein11K (tix : Nat) (x y r : Ptr) (J0 : Nat) (b t : D3) : Thr α Unit :=
  let i0 := ix1 tix b t
  ein1 J0 (fun j0 => x.arr + (i0 * x.s0 + j0 * x.s1)) (fun j0 => y.arr + (i0 * y.s0 + j0 * y.s1)) (r.arr + i0 * r.s0)

/-- cuda/RtensorEinsumProducts.cu:158-170. -/
def ein21K (tix : Nat) (x y r : Ptr) (J0 : Nat) (b t : D3) : Thr α Unit :=
  let (i0, i1) := ix2 tix b t
  ein1 J0 (fun j0 => x.arr + (i0 * x.s0 + i1 * x.s1 + j0 * x.s2)) (fun j0 => y.arr + (i0 * y.s0 + i1 * y.s1 + j0 * y.s2)) (r.arr + (i0 * r.s0 + i1 * r.s1))

/-- cuda/RtensorEinsumProducts.cu:172-185. -/
def ein31K (tix : Nat) (x y r : Ptr) (J0 : Nat) (b t : D3) : Thr α Unit :=
  let (i0, i1, i2) := ix3 tix b t
  ein1 J0 (fun j0 => x.arr + (i0 * x.s0 + i1 * x.s1 + i2 * x.s2 + j0 * x.s3)) (fun j0 => y.arr + (i0 * y.s0 + i1 * y.s1 + i2 * y.s2 + j0 * y.s3))
    (r.arr + (i0 * r.s0 + i1 * r.s1 + i2 * r.s2))

/-- cuda/RtensorEinsumProducts.cu:191-201: the second stride of `y` is `x1`. -/
def ein02K (x y r : Ptr) (J0 J1 : Nat) (_ _ : D3) : Thr α Unit := ein2 J0 J1 (fun j0 j1 => x.arr + (j0 * x.s0 + j1 * x.s1)) (fun j0 j1 => y.arr + (j0 * y.s0 + j1 * x.s1)) r.arr

/-- cuda/RtensorEinsumProducts.cu:203-216. -/
def ein12K (tix : Nat) (x y r : Ptr) (J0 J1 : Nat) (b t : D3) : Thr α Unit :=
  let i0 := ix1 tix b t
  ein2 J0 J1 (fun j0 j1 => x.arr + (i0 * x.s0 + j0 * x.s1 + j1 * x.s2)) (fun j0 j1 => y.arr + (i0 * y.s0 + j0 * y.s1 + j1 * y.s2)) (r.arr + i0 * r.s0)

/-- cuda/RtensorEinsumProducts.cu:218-231. -/
def ein22K (tix : Nat) (x y r : Ptr) (J0 J1 : Nat) (b t : D3) : Thr α Unit :=
  let (i0, i1) := ix2 tix b t
  ein2 J0 J1 (fun j0 j1 => x.arr + (i0 * x.s0 + i1 * x.s1 + j0 * x.s2 + j1 * x.s3)) (fun j0 j1 => y.arr + (i0 * y.s0 + i1 * y.s1 + j0 * y.s2 + j1 * y.s3))
    (r.arr + (i0 * r.s0 + i1 * r.s1))

/-- cuda/RtensorEinsumProducts.cu:233-247: the last stride of `y` is `x4`. -/
def ein32K (tix : Nat) (x y r : Ptr) (J0 J1 : Nat) (b t : D3) : Thr α Unit :=
  let (i0, i1, i2) := ix3 tix b t
  ein2 J0 J1 (fun j0 j1 => x.arr + (i0 * x.s0 + i1 * x.s1 + i2 * x.s2 + j0 * x.s3 + j1 * x.s4))
    (fun j0 j1 => y.arr + (i0 * y.s0 + i1 * y.s1 + i2 * y.s2 + j0 * y.s3 + j1 * x.s4)) (r.arr + (i0 * r.s0 + i1 * r.s1 + i2 * r.s2))

/-- The launches for one index (cuda/RtensorEinsumProducts.cu:267-271, 334-338, 403-407). -/
def launch1 (n0 : Nat) (k : Nat → D3 → D3 → Thr α Unit) : List (Launch α) :=
  if n0 ≤ 1024 then [⟨⟨1, 1, 1⟩, ⟨n0, 1, 1⟩, k 1⟩] else [⟨⟨n0, 1, 1⟩, ⟨1, 1, 1⟩, k 0⟩]

/-- The launches for two indices (cuda/RtensorEinsumProducts.cu:280-290, 348-358, 417-427). -/
def launch2 (n0 n1 : Nat) (k : Nat → D3 → D3 → Thr α Unit) : List (Launch α) :=
  if n0 * n1 ≤ 1024 then [⟨⟨1, 1, 1⟩, ⟨n0, n1, 1⟩, k 2⟩]
  else if n1 ≤ 1024 then [⟨⟨n0, 1, 1⟩, ⟨n1, 1, 1⟩, k 1⟩]
  else [⟨⟨n0, n1, 1⟩, ⟨1, 1, 1⟩, k 0⟩]

/-- cuda/RtensorEinsumProducts.cu:258-261 `Rtensor_addEinsum_0_0_0_cu`. -/
def ein00 (x y r : Ptr) : List (Launch α) := [⟨⟨1, 1, 1⟩, ⟨1, 1, 1⟩, ein00K x y r⟩]

/-- cuda/RtensorEinsumProducts.cu:263-272 `Rtensor_addEinsum_1_0_0_cu`. -/
def ein10 (x y r : Ptr) (n0 : Nat) : List (Launch α) := launch1 n0 fun tix => ein10K tix x y r

/-- cuda/RtensorEinsumProducts.cu:274-291 `Rtensor_addEinsum_2_0_0_cu`. -/
def ein20 (x y r : Ptr) (n0 n1 : Nat) : List (Launch α) := launch2 n0 n1 fun tix => ein20K tix x y r

/-- cuda/RtensorEinsumProducts.cu:293-316 `Rtensor_addEinsum_3_0_0_cu`: for small sizes `n0*n1` threads along one axis. -/
def ein30 (x y r : Ptr) (n0 n1 n2 : Nat) : List (Launch α) :=
  if n0 * n1 * n2 ≤ 1024 then [⟨⟨1, 1, 1⟩, ⟨n0 * n1, 1, 1⟩, ein30K 3 x y r⟩]
  else if n1 * n2 ≤ 1024 then [⟨⟨n0, 1, 1⟩, ⟨n1, n2, 1⟩, ein30K 2 x y r⟩]
  else if n2 ≤ 1024 then [⟨⟨n0, n1, 1⟩, ⟨n2, 1, 1⟩, ein30K 1 x y r⟩]
  else [⟨⟨n0, n1, n2⟩, ⟨1, 1, 1⟩, ein30K 0 x y r⟩]

/-- cuda/RtensorEinsumProducts.cu:319-325 `Rtensor_addEinsum_0_1_0_cu`. -/
def ein01 (x y r : Ptr) (J0 : Nat) : List (Launch α) := [⟨⟨1, 1, 1⟩, ⟨1, 1, 1⟩, ein01K x y r J0⟩]

/-- cuda/RtensorEinsumProducts.cu:327-339 `Rtensor_addEinsum_1_1_0_cu`. -/
def ein11 (x y r : Ptr) (n0 J0 : Nat) : List (Launch α) := launch1 n0 fun tix => ein11K tix x y r J0

/-- cuda/RtensorEinsumProducts.cu:341-359 `Rtensor_addEinsum_2_1_0_cu`. -/
def ein21 (x y r : Ptr) (n0 n1 J0 : Nat) : List (Launch α) := launch2 n0 n1 fun tix => ein21K tix x y r J0

/-- cuda/RtensorEinsumProducts.cu:361-385 `Rtensor_addEinsum_3_1_0_cu`. -/
def ein31 (x y r : Ptr) (n0 n1 n2 J0 : Nat) : List (Launch α) :=
  if n0 * n1 * n2 ≤ 1024 then [⟨⟨1, 1, 1⟩, ⟨n0, n1, n2⟩, ein31K 3 x y r J0⟩]
  else if n1 * n2 ≤ 1024 then [⟨⟨n0, 1, 1⟩, ⟨n1, n2, 1⟩, ein31K 2 x y r J0⟩]
  else if n2 ≤ 1024 then [⟨⟨n0, n1, 1⟩, ⟨n2, 1, 1⟩, ein31K 1 x y r J0⟩]
  else [⟨⟨n0, n1, n2⟩, ⟨1, 1, 1⟩, ein31K 0 x y r J0⟩]

/-- cuda/RtensorEinsumProducts.cu:388-394 `Rtensor_addEinsum_0_2_0_cu`: `y0` is passed for `y1`. -/
def ein02 (x y r : Ptr) (J0 J1 : Nat) : List (Launch α) := [⟨⟨1, 1, 1⟩, ⟨1, 1, 1⟩, ein02K x { y with s1 := y.s0 } r J0 J1⟩]

/-- cuda/RtensorEinsumProducts.cu:396-408 `Rtensor_addEinsum_1_2_0_cu`. -/
def ein12 (x y r : Ptr) (n0 J0 J1 : Nat) : List (Launch α) := launch1 n0 fun tix => ein12K tix x y r J0 J1

/-- cuda/RtensorEinsumProducts.cu:410-428 `Rtensor_addEinsum_2_2_0_cu`. -/
def ein22 (x y r : Ptr) (n0 n1 J0 J1 : Nat) : List (Launch α) := launch2 n0 n1 fun tix => ein22K tix x y r J0 J1

/-- cuda/RtensorEinsumProducts.cu:430-451 `Rtensor_addEinsum_3_2_0_cu`: the branches do not return. -/
def ein32 (x y r : Ptr) (n0 n1 n2 J0 J1 : Nat) : List (Launch α) :=
  (if n0 * n1 * n2 ≤ 1024 then [⟨⟨1, 1, 1⟩, ⟨n0, n1, n2⟩, ein32K 3 x y r J0 J1⟩] else []) ++
  (if n1 * n2 ≤ 1024 then [⟨⟨n0, 1, 1⟩, ⟨n1, n2, 1⟩, ein32K 2 x y r J0 J1⟩] else []) ++
  (if n2 ≤ 1024 then [⟨⟨n0, n1, 1⟩, ⟨n2, 1, 1⟩, ein32K 1 x y r J0 J1⟩] else []) ++
  [⟨⟨n0, n1, n2⟩, ⟨1, 1, 1⟩, ein32K 0 x y r J0 J1⟩]

end

end Gpu

end Cnine
