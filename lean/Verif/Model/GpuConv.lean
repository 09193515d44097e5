import Verif.Model.GpuR
import Verif.Model.Conv

/-!
# Convolutions on the GPU

cuda/RtensorConvolve2d.cu, cuda/RtensorConvolve3d.cu and cuda/RtensorConvolve3dSparse.cu, with the parts of tensor_views/functions/RtensorConvolve2d.hpp,
RtensorConvolve3d.hpp and RtensorConvolve3dSparse.hpp that call them (all operands on the GPU).  Where the code only prints there is no launch.
cuda/RtensorConvolve2dSparse.cu is not called.  The CSR filter of the sparse ones is given by the pairs (column, value) of each row, in a memory that no kernel writes.
-/

namespace Cnine

open Conv

variable {α : Type}

/-- tensor_views/Rtensor4_view.hpp:31-33. -/
structure RV4 where
  arr : Nat
  n0 : Nat
  n1 : Nat
  n2 : Nat
  n3 : Nat
  s0 : Nat
  s1 : Nat
  s2 : Nat
  s3 : Nat

/-- tensor_views/Rtensor5_view.hpp:31-33. -/
structure RV5 where
  arr : Nat
  n0 : Nat
  n1 : Nat
  n2 : Nat
  n3 : Nat
  n4 : Nat
  s0 : Nat
  s1 : Nat
  s2 : Nat
  s3 : Nat
  s4 : Nat

/-- tensor_views/Rtensor6_view.hpp:31-33. -/
structure RV6 where
  arr : Nat
  n0 : Nat
  n1 : Nat
  n2 : Nat
  n3 : Nat
  n4 : Nat
  n5 : Nat
  s0 : Nat
  s1 : Nat
  s2 : Nat
  s3 : Nat
  s4 : Nat
  s5 : Nat

namespace Gpu

/-- `arr[p]` where the offset `p` is an `int` (for example cuda/RtensorConvolve2d.cu:64). -/
def Thr.rdI (p : Int) : Thr α α := if 0 ≤ p then Thr.rd p.toNat else .fail

/-- `for(int j=lo; j<hi; j++)` in a kernel (for example cuda/RtensorConvolve2d.cu:61). -/
def Thr.loopI {β : Type} (lo hi : Int) (b : β) (f : Int → β → Thr α β) : Thr α β := Thr.loop (hi - lo).toNat b fun k b => f (lo + k) b

section dense

variable [Zero α] [Add α] [Mul α]

/-- `t+=xarr[...]*warr[...]` (cuda/RtensorConvolve2d.cu:43-44). -/
def mulAdd (xa wa : Int) (t : α) : Thr α α := do
  let u ← Thr.rdI xa
  let v ← Thr.rdI wa
  pure (t + u * v)

/-- The loops of the kernels of cuda/RtensorConvolve2d.cu (40-47, 60-67, 80-87, 100-107): `j0`, `j1` and `a`, then the sum is added to the cell `dst`. -/
def body2 (lo0 hi0 lo1 hi1 : Int) (na : Nat) (xa wa : Int → Int → Int → Int) (dst : Nat) : Thr α Unit := do
  let t ← Thr.loopI lo0 hi0 (0 : α) fun j0 t => Thr.loopI lo1 hi1 t fun j1 t => Thr.loop na t fun a t => mulAdd (xa j0 j1 a) (wa j0 j1 a) t
  Thr.inc dst t

/-- The loops of the kernels of cuda/RtensorConvolve3d.cu (44-52, 66-74, 91-99, 114-122, 140-148, 164-173). -/
def body3 (lo0 hi0 lo1 hi1 lo2 hi2 : Int) (na : Nat) (xa wa : Int → Int → Int → Int → Int) (dst : Nat) : Thr α Unit := do
  let t ← Thr.loopI lo0 hi0 (0 : α) fun j0 t => Thr.loopI lo1 hi1 t fun j1 t => Thr.loopI lo2 hi2 t fun j2 t =>
    Thr.loop na t fun a t => mulAdd (xa j0 j1 j2 a) (wa j0 j1 j2 a) t
  Thr.inc dst t

/-- cuda/RtensorConvolve2d.cu:32-48. -/
def c2D4 (r x w : RV4) (b t : D3) : Thr α Unit :=
  let i0 : Int := b.x
  let i1 : Int := b.y
  body2 0 w.n1 0 w.n2 w.n3 (fun j0 j1 a => x.arr + ((i0 + j0) * x.s0 + (i1 + j1) * x.s1 + a * x.s2 + t.x * x.s3)) (fun j0 j1 a => w.arr + b.z * w.s0 + j0 * w.s1 + j1 * w.s2 + a * w.s3)
    (r.arr + (b.x * r.s0 + b.y * r.s1 + b.z * r.s2 + t.x * r.s3))

/-- cuda/RtensorConvolve2d.cu:51-68, with padding. -/
def c2D4p (r x w : RV4) (p0 p1 : Int) (b t : D3) : Thr α Unit :=
  let i0 : Int := b.x
  let i1 : Int := b.y
  body2 (max 0 (p0 - i0)) (min w.n1 (x.n0 - i0 + p0)) (max 0 (p1 - i1)) (min w.n2 (x.n1 - i1 + p1)) w.n3
    (fun j0 j1 a => x.arr + ((i0 + j0 - p0) * x.s0 + (i1 + j1 - p1) * x.s1 + a * x.s2 + t.x * x.s3)) (fun j0 j1 a => w.arr + b.z * w.s0 + j0 * w.s1 + j1 * w.s2 + a * w.s3)
    (r.arr + (b.x * r.s0 + b.y * r.s1 + b.z * r.s2 + t.x * r.s3))

/-- cuda/RtensorConvolve2d.cu:72-88: the position is `blockIdx.y`. -/
def c2D5 (r x : RV5) (w : RV4) (b t : D3) : Thr α Unit :=
  let i0 := b.y / r.n2
  let i1 := b.y % r.n2
  body2 0 w.n1 0 w.n2 w.n3 (fun j0 j1 a => x.arr + (b.x * x.s0 + (i0 + j0) * x.s1 + (i1 + j1) * x.s2 + a * x.s3 + t.x * x.s4))
    (fun j0 j1 a => w.arr + b.z * w.s0 + j0 * w.s1 + j1 * w.s2 + a * w.s3) (r.arr + (b.x * r.s0 + i0 * r.s1 + i1 * r.s2 + b.z * r.s3 + t.x * r.s4))

/-- cuda/RtensorConvolve2d.cu:91-108, with padding. -/
def c2D5p (r x : RV5) (w : RV4) (p0 p1 : Int) (b t : D3) : Thr α Unit :=
  let i0 := b.y / r.n2
  let i1 := b.y % r.n2
  body2 (max 0 (p0 - i0)) (min w.n1 (x.n1 - i0 + p0)) (max 0 (p1 - i1)) (min w.n2 (x.n2 - i1 + p1)) w.n3
    (fun j0 j1 a => x.arr + (b.x * x.s0 + (i0 + j0 - p0) * x.s1 + (i1 + j1 - p1) * x.s2 + a * x.s3 + t.x * x.s4))
    (fun j0 j1 a => w.arr + b.z * w.s0 + j0 * w.s1 + j1 * w.s2 + a * w.s3) (r.arr + (b.x * r.s0 + i0 * r.s1 + i1 * r.s2 + b.z * r.s3 + t.x * r.s4))

/-- tensor_views/functions/RtensorConvolve2d.hpp:69-102 and cuda/RtensorConvolve2d.cu:119-141: `(i0,i1,a,c)*(a',j0,j1,a) -> (i0+j0,i1+j1,a',c)`. -/
def conv2D4 (r x w : RV4) : Res (List (Launch α)) := do
  Res.assrt (decide (r.n2 = w.n0))
  Res.assrt (decide (x.n2 = w.n3))
  Res.assrt (decide (r.n3 = x.n3))
  let p0 := padOf r.n0 x.n0 w.n1
  let p1 := padOf r.n1 x.n1 w.n2
  .ok [⟨⟨r.n0, r.n1, r.n2⟩, ⟨r.n3, 1, 1⟩, if p0 = 0 ∧ p1 = 0 then c2D4 r x w else c2D4p r x w p0 p1⟩]

/-- tensor_views/functions/RtensorConvolve2d.hpp:106-123 and cuda/RtensorConvolve2d.cu:143-165: `(b,i0,i1,a,c)*(a',j0,j1,a) -> (b,i0+j0,i1+j1,a',c)`. -/
def conv2D5 (r x : RV5) (w : RV4) : Res (List (Launch α)) := do
  Res.assrt (decide (r.n0 = x.n0))
  Res.assrt (decide (r.n3 = w.n0))
  Res.assrt (decide (r.n4 = x.n4))
  Res.assrt (decide (x.n3 = w.n3))
  let p0 := padOf r.n1 x.n1 w.n1
  let p1 := padOf r.n2 x.n2 w.n2
  .ok [⟨⟨r.n0, r.n1 * r.n2, r.n3⟩, ⟨r.n4, 1, 1⟩, if p0 = 0 ∧ p1 = 0 then c2D5 r x w else c2D5p r x w p0 p1⟩]

/-- cuda/RtensorConvolve3d.cu:34-53. -/
def c3D4 (r x : RV4) (w : RV5) (b t : D3) : Thr α Unit :=
  let i0 : Int := b.x
  let i1 : Int := b.y
  let i2 : Int := b.z
  body3 0 w.n1 0 w.n2 0 w.n3 w.n4 (fun j0 j1 j2 a => x.arr + ((i0 + j0) * x.s0 + (i1 + j1) * x.s1 + (i2 + j2) * x.s2 + a * x.s3))
    (fun j0 j1 j2 a => w.arr + t.x * w.s0 + j0 * w.s1 + j1 * w.s2 + j2 * w.s3 + a * w.s4) (r.arr + (b.x * r.s0 + b.y * r.s1 + b.z * r.s2 + t.x * r.s3))

/-- cuda/RtensorConvolve3d.cu:55-75, with padding. -/
def c3D4p (r x : RV4) (w : RV5) (p0 p1 p2 : Int) (b t : D3) : Thr α Unit :=
  let i0 : Int := b.x
  let i1 : Int := b.y
  let i2 : Int := b.z
  body3 (max 0 (p0 - i0)) (min w.n1 (x.n0 - i0 + p0)) (max 0 (p1 - i1)) (min w.n2 (x.n1 - i1 + p1)) (max 0 (p2 - i2)) (min w.n3 (x.n2 - i2 + p2)) w.n4
    (fun j0 j1 j2 a => x.arr + ((i0 + j0 - p0) * x.s0 + (i1 + j1 - p1) * x.s1 + (i2 + j2 - p2) * x.s2 + a * x.s3))
    (fun j0 j1 j2 a => w.arr + t.x * w.s0 + j0 * w.s1 + j1 * w.s2 + j2 * w.s3 + a * w.s4) (r.arr + (b.x * r.s0 + b.y * r.s1 + b.z * r.s2 + t.x * r.s3))

/-- cuda/RtensorConvolve3d.cu:81-100. -/
def c3D5 (r x : RV5) (w : RV5) (b t : D3) : Thr α Unit :=
  let i0 : Int := b.x
  let i1 : Int := b.y
  let i2 : Int := b.z
  body3 0 w.n1 0 w.n2 0 w.n3 w.n4 (fun j0 j1 j2 a => x.arr + ((i0 + j0) * x.s0 + (i1 + j1) * x.s1 + (i2 + j2) * x.s2 + a * x.s3 + t.y * x.s4))
    (fun j0 j1 j2 a => w.arr + t.x * w.s0 + j0 * w.s1 + j1 * w.s2 + j2 * w.s3 + a * w.s4) (r.arr + (b.x * r.s0 + b.y * r.s1 + b.z * r.s2 + t.x * r.s3 + t.y * r.s4))

/-- cuda/RtensorConvolve3d.cu:103-123, with padding. -/
def c3D5p (r x : RV5) (w : RV5) (p0 p1 p2 : Int) (b t : D3) : Thr α Unit :=
  let i0 : Int := b.x
  let i1 : Int := b.y
  let i2 : Int := b.z
  body3 (max 0 (p0 - i0)) (min w.n1 (x.n0 - i0 + p0)) (max 0 (p1 - i1)) (min w.n2 (x.n1 - i1 + p1)) (max 0 (p2 - i2)) (min w.n3 (x.n2 - i2 + p2)) w.n4
    (fun j0 j1 j2 a => x.arr + ((i0 + j0 - p0) * x.s0 + (i1 + j1 - p1) * x.s1 + (i2 + j2 - p2) * x.s2 + a * x.s3 + t.y * x.s4))
    (fun j0 j1 j2 a => w.arr + t.x * w.s0 + j0 * w.s1 + j1 * w.s2 + j2 * w.s3 + a * w.s4) (r.arr + (b.x * r.s0 + b.y * r.s1 + b.z * r.s2 + t.x * r.s3 + t.y * r.s4))

/-- cuda/RtensorConvolve3d.cu:129-149: the batch and the first axis are in `blockIdx.x`. -/
def c3D6 (r x : RV6) (w : RV5) (b t : D3) : Thr α Unit :=
  let bb := b.x / r.n1
  let i0 := b.x % r.n1
  let i1 : Int := b.y
  let i2 : Int := b.z
  body3 0 w.n1 0 w.n2 0 w.n3 w.n4 (fun j0 j1 j2 a => x.arr + (bb * x.s0 + (i0 + j0) * x.s1 + (i1 + j1) * x.s2 + (i2 + j2) * x.s3 + a * x.s4 + t.y * x.s5))
    (fun j0 j1 j2 a => w.arr + t.x * w.s0 + j0 * w.s1 + j1 * w.s2 + j2 * w.s3 + a * w.s4) (r.arr + (bb * r.s0 + i0 * r.s1 + b.y * r.s2 + b.z * r.s3 + t.x * r.s4 + t.y * r.s5))

/-- cuda/RtensorConvolve3d.cu:152-174, with padding. -/
def c3D6p (r x : RV6) (w : RV5) (p0 p1 p2 : Int) (b t : D3) : Thr α Unit :=
  let bb := b.x / r.n1
  let i0 := b.x % r.n1
  let i1 : Int := b.y
  let i2 : Int := b.z
  body3 (max 0 (p0 - i0)) (min w.n1 (x.n1 - i0 + p0)) (max 0 (p1 - i1)) (min w.n2 (x.n2 - i1 + p1)) (max 0 (p2 - i2)) (min w.n3 (x.n3 - i2 + p2)) w.n4
    (fun j0 j1 j2 a => x.arr + (bb * x.s0 + (i0 + j0 - p0) * x.s1 + (i1 + j1 - p1) * x.s2 + (i2 + j2 - p2) * x.s3 + a * x.s4 + t.y * x.s5))
    (fun j0 j1 j2 a => w.arr + t.x * w.s0 + j0 * w.s1 + j1 * w.s2 + j2 * w.s3 + a * w.s4) (r.arr + (bb * r.s0 + i0 * r.s1 + b.y * r.s2 + b.z * r.s3 + t.x * r.s4 + t.y * r.s5))

/-- tensor_views/functions/RtensorConvolve3d.hpp:35-71 and cuda/RtensorConvolve3d.cu:188-211: `(i0,i1,i2,a)*(a',j0,j1,j2,a) -> (i0+j0,i1+j1,i2+j2,a')`. -/
def conv3D4 (r x : RV4) (w : RV5) : Res (List (Launch α)) := do
  Res.assrt (decide (r.n3 = w.n0))
  Res.assrt (decide (x.n3 = w.n4))
  let p0 := padOf r.n0 x.n0 w.n1
  let p1 := padOf r.n1 x.n1 w.n2
  let p2 := padOf r.n2 x.n2 w.n3
  .ok [⟨⟨r.n0, r.n1, r.n2⟩, ⟨r.n3, 1, 1⟩, if p0 = 0 ∧ p1 = 0 ∧ p2 = 0 then c3D4 r x w else c3D4p r x w p0 p1 p2⟩]

/-- tensor_views/functions/RtensorConvolve3d.hpp:75-107 and cuda/RtensorConvolve3d.cu:217-246, with a further axis. -/
def conv3D5 (r x : RV5) (w : RV5) : Res (List (Launch α)) := do
  Res.assrt (decide (r.n3 = w.n0))
  Res.assrt (decide (x.n3 = w.n4))
  Res.assrt (decide (r.n4 = x.n4))
  let p0 := padOf r.n0 x.n0 w.n1
  let p1 := padOf r.n1 x.n1 w.n2
  let p2 := padOf r.n2 x.n2 w.n3
  if r.n3 * r.n4 ≤ 1024 then
    .ok [⟨⟨r.n0, r.n1, r.n2⟩, ⟨r.n3, r.n4, 1⟩, if p0 = 0 ∧ p1 = 0 ∧ p2 = 0 then c3D5 r x w else c3D5p r x w p0 p1 p2⟩]
  else .ok []

/-- tensor_views/functions/RtensorConvolve3d.hpp:111-133 and cuda/RtensorConvolve3d.cu:252-281, with batches. -/
def conv3D6 (r x : RV6) (w : RV5) : Res (List (Launch α)) := do
  Res.assrt (decide (r.n0 = x.n0))
  Res.assrt (decide (r.n4 = w.n0))
  Res.assrt (decide (r.n5 = x.n5))
  Res.assrt (decide (x.n4 = w.n4))
  let p0 := padOf r.n1 x.n1 w.n1
  let p1 := padOf r.n2 x.n2 w.n2
  let p2 := padOf r.n3 x.n3 w.n3
  if r.n4 * r.n5 ≤ 1024 then
    .ok [⟨⟨r.n0 * r.n1, r.n2, r.n3⟩, ⟨r.n4, r.n5, 1⟩, if p0 = 0 ∧ p1 = 0 ∧ p2 = 0 then c3D6 r x w else c3D6p r x w p0 p1 p2⟩]
  else .ok []

/-! ### Sparse filters -/

/-- The columns of a filter `(j0,j1,j2,a)` (cuda/RtensorConvolve3dSparse.cu:49-52). -/
def cut (J1 J2 na s : Nat) : Nat × Nat × Nat × Nat :=
  let j0 := s / (J1 * J2 * na)
  let j1 := s / (J2 * na) - j0 * J1
  let j2 := s / na - (j0 * J1 * J2 + j1 * J2)
  (j0, j1, j2, s % na)

/-- The loop of the kernels of cuda/RtensorConvolve3dSparse.cu (46-55, 72-84, 103-112, 129-141, 160-170, 187-199) over the entries of a row: those that `skip` holds
for are passed over, `xa` is where the others read. -/
def bodyS (es : List (Nat × α)) (J1 J2 na : Nat) (skip : Nat → Nat → Nat → Bool) (xa : Nat → Nat → Nat → Nat → Nat) (dst : Nat) : Thr α Unit := do
  let t ← es.foldl (fun (p : Thr α α) e => do
    let t ← p
    let (j0, j1, j2, a) := cut J1 J2 na e.1
    if skip j0 j1 j2 then pure t else do
      let u ← Thr.rd (xa j0 j1 j2 a)
      pure (t + u * e.2)) (pure 0)
  Thr.inc dst t

/-- The tests of the kernels with padding (cuda/RtensorConvolve3dSparse.cu:79-81); the last one compares with `padding1`. -/
def skipS (xn0 xn1 xn2 : Nat) (p0 p1 p2 : Int) (i0 i1 i2 : Nat) (j0 j1 j2 : Nat) : Bool :=
  decide ((i0 : Int) + j0 - p0 < 0 ∨ (i0 : Int) + j0 - p0 ≥ xn0) || decide ((i1 : Int) + j1 - p1 < 0 ∨ (i1 : Int) + j1 - p1 ≥ xn1) ||
    decide ((i2 : Int) + j2 - p1 < 0 ∨ (i2 : Int) + j2 - p2 ≥ xn2)

/-- cuda/RtensorConvolve3dSparse.cu:34-86, both kernels: the row is `threadIdx.x`, the cell has `blockIdx.y`. -/
def s3D4 (r x : RV4) (rows : Nat → List (Nat × α)) (J1 J2 : Nat) (skip : Nat → Nat → Nat → Nat → Nat → Nat → Bool) (b t : D3) : Thr α Unit :=
  let i0 := b.x / (r.n1 * r.n2)
  let i1 := b.x / r.n2 - i0 * r.n1
  let i2 := b.x % r.n2
  bodyS (rows t.x) J1 J2 x.n3 (skip i0 i1 i2) (fun j0 j1 j2 a => x.arr + ((i0 + j0) * x.s0 + (i1 + j1) * x.s1 + (i2 + j2) * x.s2 + a * x.s3))
    (r.arr + (i0 * r.s0 + i1 * r.s1 + i2 * r.s2 + b.y * r.s3))

/-- cuda/RtensorConvolve3dSparse.cu:91-143, both kernels: the row is `blockIdx.y`. -/
def s3D5 (r x : RV5) (rows : Nat → List (Nat × α)) (J1 J2 : Nat) (skip : Nat → Nat → Nat → Nat → Nat → Nat → Bool) (b t : D3) : Thr α Unit :=
  let i0 := b.x / (r.n1 * r.n2)
  let i1 := b.x / r.n2 - i0 * r.n1
  let i2 := b.x % r.n2
  bodyS (rows b.y) J1 J2 x.n3 (skip i0 i1 i2) (fun j0 j1 j2 a => x.arr + ((i0 + j0) * x.s0 + (i1 + j1) * x.s1 + (i2 + j2) * x.s2 + a * x.s3 + t.x * x.s4))
    (r.arr + (i0 * r.s0 + i1 * r.s1 + i2 * r.s2 + b.y * r.s3 + t.x * r.s4))

/-- cuda/RtensorConvolve3dSparse.cu:148-201, both kernels: the batch is `blockIdx.z`. -/
def s3D6 (r x : RV6) (rows : Nat → List (Nat × α)) (J1 J2 : Nat) (skip : Nat → Nat → Nat → Nat → Nat → Nat → Bool) (b t : D3) : Thr α Unit :=
  let i0 := b.x / (r.n2 * r.n3)
  let i1 := b.x / r.n3 - i0 * r.n2
  let i2 := b.x % r.n3
  bodyS (rows b.y) J1 J2 x.n4 (skip i0 i1 i2) (fun j0 j1 j2 a => x.arr + (b.z * x.s0 + (i0 + j0) * x.s1 + (i1 + j1) * x.s2 + (i2 + j2) * x.s3 + a * x.s4 + t.x * x.s5))
    (r.arr + (b.z * r.s0 + i0 * r.s1 + i1 * r.s2 + i2 * r.s3 + b.y * r.s4 + t.x * r.s5))

/-- tensor_views/functions/RtensorConvolve3dSparse.hpp:37-68 and cuda/RtensorConvolve3dSparse.cu:215-229; `wn` is the number of rows. -/
def sparse3D4 (r x : RV4) (wn : Nat) (rows : Nat → List (Nat × α)) (J0 J1 J2 : Nat) : Res (List (Launch α)) := do
  Res.assrt (decide (r.n3 = wn))
  let p0 := padOf r.n0 x.n0 J0
  let p1 := padOf r.n1 x.n1 J1
  let p2 := padOf r.n2 x.n2 J2
  .ok [⟨⟨r.n0 * r.n1 * r.n2, 1, 1⟩, ⟨r.n3, 1, 1⟩,
    s3D4 r x rows J1 J2 (if p0 = 0 ∧ p1 = 0 ∧ p2 = 0 then fun _ _ _ _ _ _ => false else skipS x.n0 x.n1 x.n2 p0 p1 p2)⟩]

/-- tensor_views/functions/RtensorConvolve3dSparse.hpp:71-107 and cuda/RtensorConvolve3dSparse.cu:235-249. -/
def sparse3D5 (r x : RV5) (wn : Nat) (rows : Nat → List (Nat × α)) (J0 J1 J2 : Nat) : Res (List (Launch α)) := do
  Res.assrt (decide (r.n3 = wn))
  Res.assrt (decide (r.n4 = x.n4))
  let p0 := padOf r.n0 x.n0 J0
  let p1 := padOf r.n1 x.n1 J1
  let p2 := padOf r.n2 x.n2 J2
  .ok [⟨⟨r.n0 * r.n1 * r.n2, r.n3, 1⟩, ⟨r.n4, 1, 1⟩,
    s3D5 r x rows J1 J2 (if p0 = 0 ∧ p1 = 0 ∧ p2 = 0 then fun _ _ _ _ _ _ => false else skipS x.n0 x.n1 x.n2 p0 p1 p2)⟩]

/-- tensor_views/functions/RtensorConvolve3dSparse.hpp:110-128 and cuda/RtensorConvolve3dSparse.cu:255-272. -/
def sparse3D6 (r x : RV6) (wn : Nat) (rows : Nat → List (Nat × α)) (J0 J1 J2 : Nat) : Res (List (Launch α)) := do
  Res.assrt (decide (r.n0 = x.n0))
  Res.assrt (decide (r.n4 = wn))
  Res.assrt (decide (r.n5 = x.n5))
  let p0 := padOf r.n1 x.n1 J0
  let p1 := padOf r.n2 x.n2 J1
  let p2 := padOf r.n3 x.n3 J2
  .ok [⟨⟨r.n1 * r.n2 * r.n3, r.n4, r.n0⟩, ⟨r.n5, 1, 1⟩,
    s3D6 r x rows J1 J2 (if p0 = 0 ∧ p1 = 0 ∧ p2 = 0 then fun _ _ _ _ _ _ => false else skipS x.n1 x.n2 x.n3 p0 p1 p2)⟩]

end dense

end Gpu

end Cnine
