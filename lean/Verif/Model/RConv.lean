import Verif.Model.Conv
import Verif.Model.Sparse

/-!
# Model of the convolutions of float views

tensor_views/functions/RtensorConvolve2d.hpp, RtensorConvolve3d.hpp, RtensorConvolve3d_back0.hpp, RtensorConvolve2dSparse.hpp and
RtensorConvolve3dSparse.hpp, CPU branches.  A view `RtensorK_view` is an `SV` with `K` sizes and strides; functions are `ub` on
lists of other lengths, which is no outcome of the code.  `CNINE_UNIMPL` only prints.  The CSR filter is the list of the triples
(row, column, value) that `for_each` (matrices/CSRmatrix.hpp:217-229) passes to its argument.
-/

namespace Cnine
namespace RConv

open Conv

variable {α : Type} [Zero α] [Add α] [Mul α]

/-- tensor_views/Rtensor2_view.hpp:329-338 `add_mprod_to(y,x)`: `y += W x`. -/
def mprodTo (W y x : SV) (m : Buf α) : Res (Buf α) := do
  let n0 ← Res.get W.dims 0
  let n1 ← Res.get W.dims 1
  let x0 ← Res.get x.dims 0
  Res.assrt (x0 = n1)
  let y0 ← Res.get y.dims 0
  Res.assrt (y0 = n0)
  loop n0 m fun a m => do
    let t ← loop n1 (0 : α) fun b t => do
      let p ← W.at2 a b
      let u ← rd m p
      let q ← x.at1 b
      let v ← rd m q
      .ok (t + u * v)
    let c ← y.at1 a
    inc m c t

/-- tensor_views/Rtensor2_view.hpp:97-101 `is_regular()`. -/
def regular (v : SV) : Prop := v.strides[1]? = some 1 ∧ ∃ n : Nat, v.dims[1]? = some n ∧ v.strides[0]? = some (n : Int)

/-- tensor_views/Rtensor2_view.hpp:103-107 `is_transpose()`. -/
def transposed (v : SV) : Prop := v.strides[0]? = some 1 ∧ ∃ n : Nat, v.dims[0]? = some n ∧ v.strides[1]? = some (n : Int)

instance (v : SV) : Decidable (regular v) :=
  match h : v.dims[1]? with
  | none => .isFalse fun ⟨_, n, e, _⟩ => by rw [h] at e; cases e
  | some k => if h' : v.strides[1]? = some 1 ∧ v.strides[0]? = some (k : Int) then .isTrue ⟨h'.1, k, h, h'.2⟩
    else .isFalse fun ⟨e1, n, e2, e3⟩ => h' ⟨e1, by rw [h] at e2; cases e2; exact e3⟩

instance (v : SV) : Decidable (transposed v) :=
  match h : v.dims[0]? with
  | none => .isFalse fun ⟨_, n, e, _⟩ => by rw [h] at e; cases e
  | some k => if h' : v.strides[0]? = some 1 ∧ v.strides[1]? = some (k : Int) then .isTrue ⟨h'.1, k, h, h'.2⟩
    else .isFalse fun ⟨e1, n, e2, e3⟩ => h' ⟨e1, by rw [h] at e2; cases e2; exact e3⟩

/-- tensor_views/Rtensor2_view.hpp:220-236 `add_mprod(x,y)`.  The three products 238-321 on `x`, `y` and their transposes compute
the same sums in the same order with the same checks: `SV.addMprod`. -/
def mprod (r x y : SV) (m : Buf α) : Res (Buf α) :=
  if regular r ∧ ((regular x ∧ regular y) ∨ (regular x ∧ transposed y) ∨ (transposed x ∧ regular y)) then SV.addMprod r x y m
  else .ok m

/-- tensor_views/functions/RtensorConvolve2d.hpp:33-65: `(i0,i1,a)*(a',j0,j1,a) -> (i0+j0,i1+j1,a')`. -/
def conv2a (r x w : SV) (m : Buf α) : Res (Buf α) :=
  match r.dims, r.strides, x.dims, x.strides, w.dims, w.strides with
  | [rn0, rn1, rn2], [rs0, rs1, rs2], [xn0, xn1, xn2], [xs0, xs1, xs2], [wn0, wn1, wn2, wn3], [ws0, ws1, ws2, ws3] => do
    Res.assrt (rn2 = wn0)
    Res.assrt (xn2 = wn3)
    let p0 := padOf rn0 xn0 wn1
    let p1 := padOf rn1 xn1 wn2
    loop rn0 m fun i0 m => loop rn1 m fun i1 m => do
      let R : SV := ⟨r.off + rs0 * i0 + rs1 * i1, [rn2], [rs2]⟩
      loopI (max 0 (p0 - i0)) (min wn1 (xn0 - i0 + p0)) m fun j0 m =>
        if p1 = 0 then
          mprodTo ⟨w.off + ws1 * j0, [wn0, wn2 * wn3], [ws0, ws3]⟩ R
            ⟨x.off + xs0 * (i0 + j0 - p0) + xs1 * i1, [wn2 * wn3], [xs2]⟩ m
        else
          loopI (max 0 (p1 - i1)) (min wn2 (xn1 - i1 + p1)) m fun j1 m =>
            mprodTo ⟨w.off + ws1 * j0 + ws2 * j1, [wn0, wn3], [ws0, ws3]⟩ R
              ⟨x.off + xs0 * (i0 + j0 - p0) + xs1 * (i1 + j1 - p1), [xn2], [xs2]⟩ m
  | _, _, _, _, _, _ => .ub

/-- tensor_views/functions/RtensorConvolve2d.hpp:68-102: `(i0,i1,a,c)*(a',j0,j1,a) -> (i0+j0,i1+j1,a',c)`. -/
def conv2ac (r x w : SV) (m : Buf α) : Res (Buf α) :=
  match r.dims, r.strides, x.dims, x.strides, w.dims, w.strides with
  | [rn0, rn1, rn2, rn3], [rs0, rs1, rs2, rs3], [xn0, xn1, xn2, xn3], [xs0, xs1, xs2, xs3], [wn0, wn1, wn2, wn3],
      [ws0, ws1, ws2, ws3] => do
    Res.assrt (rn2 = wn0)
    Res.assrt (xn2 = wn3)
    Res.assrt (rn3 = xn3)
    let p0 := padOf rn0 xn0 wn1
    let p1 := padOf rn1 xn1 wn2
    loop rn0 m fun i0 m => loop rn1 m fun i1 m => do
      let R : SV := ⟨r.off + rs0 * i0 + rs1 * i1, [rn2, rn3], [rs2, rs3]⟩
      loopI (max 0 (p0 - i0)) (min wn1 (xn0 - i0 + p0)) m fun j0 m =>
        if p1 = 0 then
          mprod R ⟨w.off + ws1 * j0, [wn0, wn2 * wn3], [ws0, ws3]⟩
            ⟨x.off + xs0 * (i0 + j0 - p0) + xs1 * i1, [wn2 * xn2, xn3], [xs2, xs3]⟩ m
        else
          loopI (max 0 (p1 - i1)) (min wn2 (xn1 - i1 + p1)) m fun j1 m =>
            mprod R ⟨w.off + ws1 * j0 + ws2 * j1, [wn0, wn3], [ws0, ws3]⟩
              ⟨x.off + xs0 * (i0 + j0 - p0) + xs1 * (i1 + j1 - p1), [xn2, xn3], [xs2, xs3]⟩ m
  | _, _, _, _, _, _ => .ub

/-- tensor_views/functions/RtensorConvolve3d.hpp:34-71: `(i0,i1,i2,a)*(a',j0,j1,j2,a) -> (i0+j0,i1+j1,i2+j2,a')`.  Line 55 bounds
`j2` by `w.n2`. -/
def conv3a (r x w : SV) (m : Buf α) : Res (Buf α) :=
  match r.dims, r.strides, x.dims, x.strides, w.dims, w.strides with
  | [rn0, rn1, rn2, rn3], [rs0, rs1, rs2, rs3], [xn0, xn1, xn2, xn3], [xs0, xs1, xs2, xs3], [wn0, wn1, wn2, wn3, wn4],
      [ws0, ws1, ws2, ws3, ws4] => do
    Res.assrt (rn3 = wn0)
    Res.assrt (xn3 = wn4)
    let p0 := padOf rn0 xn0 wn1
    let p1 := padOf rn1 xn1 wn2
    let p2 := padOf rn2 xn2 wn3
    loop rn0 m fun i0 m => loop rn1 m fun i1 m => loop rn2 m fun i2 m => do
      let R : SV := ⟨r.off + rs0 * i0 + rs1 * i1 + rs2 * i2, [rn3], [rs3]⟩
      loopI (max 0 (p0 - i0)) (min wn1 (xn0 - i0 + p0)) m fun j0 m =>
        loopI (max 0 (p1 - i1)) (min wn2 (xn1 - i1 + p1)) m fun j1 m =>
          if p2 = 0 then
            mprodTo ⟨w.off + ws1 * j0 + ws2 * j1, [wn0, wn3 * wn4], [ws0, ws4]⟩ R
              ⟨x.off + xs0 * (i0 + j0 - p0) + xs1 * (i1 + j1 - p1) + xs2 * i2, [wn3 * wn4], [xs3]⟩ m
          else
            loopI (max 0 (p2 - i2)) (min wn2 (xn2 - i2 + p2)) m fun j2 m =>
              mprodTo ⟨w.off + ws1 * j0 + ws2 * j1 + ws3 * j2, [wn0, wn4], [ws0, ws4]⟩ R
                ⟨x.off + xs0 * (i0 + j0 - p0) + xs1 * (i1 + j1 - p1) + xs2 * (i2 + j2 - p2), [xn3], [xs3]⟩ m
  | _, _, _, _, _, _ => .ub

/-- tensor_views/functions/RtensorConvolve3d.hpp:74-107: with a further axis. -/
def conv3ac (r x w : SV) (m : Buf α) : Res (Buf α) :=
  match r.dims, r.strides, x.dims, x.strides, w.dims, w.strides with
  | [rn0, rn1, rn2, rn3, rn4], [rs0, rs1, rs2, rs3, rs4], [xn0, xn1, xn2, xn3, xn4], [xs0, xs1, xs2, xs3, xs4],
      [wn0, wn1, wn2, wn3, wn4], [ws0, ws1, ws2, ws3, ws4] => do
    Res.assrt (rn3 = wn0)
    Res.assrt (xn3 = wn4)
    Res.assrt (rn4 = xn4)
    let p0 := padOf rn0 xn0 wn1
    let p1 := padOf rn1 xn1 wn2
    let p2 := padOf rn2 xn2 wn3
    loop rn0 m fun i0 m => loop rn1 m fun i1 m => loop rn2 m fun i2 m => do
      let R : SV := ⟨r.off + rs0 * i0 + rs1 * i1 + rs2 * i2, [rn3, rn4], [rs3, rs4]⟩
      loopI (max 0 (p0 - i0)) (min wn1 (xn0 - i0 + p0)) m fun j0 m =>
        loopI (max 0 (p1 - i1)) (min wn2 (xn1 - i1 + p1)) m fun j1 m =>
          loopI (max 0 (p2 - i2)) (min wn3 (xn2 - i2 + p2)) m fun j2 m =>
            mprod R ⟨w.off + ws1 * j0 + ws2 * j1 + ws3 * j2, [wn0, wn4], [ws0, ws4]⟩
              ⟨x.off + xs0 * (i0 + j0 - p0) + xs1 * (i1 + j1 - p1) + xs2 * (i2 + j2 - p2), [xn3, xn4], [xs3, xs4]⟩ m
  | _, _, _, _, _, _ => .ub

/-- tensor_views/functions/RtensorConvolve3d_back0.hpp:26-31. -/
def conv3aBack0 (rg xg w : SV) (m : Buf α) : Res (Buf α) :=
  match w.dims, w.strides with
  | [n0, n1, n2, n3, n4], [s0, s1, s2, s3, s4] =>
    conv3a xg rg ⟨w.off + ((n1 : Int) - 1) * s1 + ((n2 : Int) - 1) * s2 + ((n3 : Int) - 1) * s3, [n4, n1, n2, n3, n0],
      [s4, -s1, -s2, -s3, s0]⟩ m
  | _, _ => .ub

/-- tensor_views/functions/RtensorConvolve3d_back0.hpp:34-39. -/
def conv3acBack0 (rg xg w : SV) (m : Buf α) : Res (Buf α) :=
  match w.dims, w.strides with
  | [n0, n1, n2, n3, n4], [s0, s1, s2, s3, s4] =>
    conv3ac xg rg ⟨w.off + ((n1 : Int) - 1) * s1 + ((n2 : Int) - 1) * s2 + ((n3 : Int) - 1) * s3, [n4, n1, n2, n3, n0],
      [s4, -s1, -s2, -s3, s0]⟩ m
  | _, _ => .ub

/-- tensor_views/functions/RtensorConvolve2dSparse.hpp:32-58; `wn` is `w.n`. -/
def conv2s (r x : SV) (wn : Nat) (es : List (Nat × Nat × α)) (J0 J1 : Nat) (m : Buf α) : Res (Buf α) :=
  match r.dims, r.strides, x.dims, x.strides with
  | [rn0, rn1, rn2], [rs0, rs1, rs2], [xn0, xn1, xn2], [xs0, xs1, xs2] => do
    Res.assrt (rn2 = wn)
    let p0 := padOf rn0 xn0 J0
    let p1 := padOf rn1 xn1 J1
    loop rn0 m fun i0 m => loop rn1 m fun i1 m => do
      let R : SV := ⟨r.off + rs0 * i0 + rs1 * i1, [rn2], [rs2]⟩
      Res.forM es m fun m (e : Nat × Nat × α) => do
        Res.need (J1 * xn2 ≠ 0)
        let j0 := e.2.1 / (J1 * xn2)
        let j1 := (e.2.1 / xn2) % J1
        if (i0 : Int) + j0 - p0 < 0 ∨ (i0 : Int) + j0 - p0 ≥ xn0 then .ok m
        else if (i1 : Int) + j1 - p1 < 0 ∨ (i1 : Int) + j1 - p1 ≥ xn1 then .ok m
        else do
          let a := e.2.1 % xn2
          let u ← rd m (x.off + (xs0 * (i0 + j0 - p0) + xs1 * (i1 + j1 - p1) + xs2 * a))
          let c ← R.at1 e.1
          inc m c (e.2.2 * u)
  | _, _, _, _ => .ub

/-- tensor_views/functions/RtensorConvolve2dSparse.hpp:61-91. -/
def conv2sc (r x : SV) (wn : Nat) (es : List (Nat × Nat × α)) (J0 J1 : Nat) (m : Buf α) : Res (Buf α) :=
  match r.dims, r.strides, x.dims, x.strides with
  | [rn0, rn1, rn2, rn3], [rs0, rs1, rs2, rs3], [xn0, xn1, xn2, xn3], [xs0, xs1, xs2, xs3] => do
    Res.assrt (rn2 = wn)
    Res.assrt (rn3 = xn3)
    let p0 := padOf rn0 xn0 J0
    let p1 := padOf rn1 xn1 J1
    loop rn0 m fun i0 m => loop rn1 m fun i1 m => do
      let R : SV := ⟨r.off + rs0 * i0 + rs1 * i1, [rn2, rn3], [rs2, rs3]⟩
      Res.forM es m fun m (e : Nat × Nat × α) => do
        Res.need (J1 * xn2 ≠ 0)
        let j0 := e.2.1 / (J1 * xn2)
        let j1 := (e.2.1 / xn2) % J1
        if (i0 : Int) + j0 - p0 < 0 ∨ (i0 : Int) + j0 - p0 ≥ xn0 then .ok m
        else if (i1 : Int) + j1 - p1 < 0 ∨ (i1 : Int) + j1 - p1 ≥ xn1 then .ok m
        else do
          let a := e.2.1 % xn2
          loop xn3 m fun c m => do
            let u ← rd m (x.off + (xs0 * (i0 + j0 - p0) + xs1 * (i1 + j1 - p1) + xs2 * a + xs3 * c))
            let q ← R.at2 e.1 c
            inc m q (e.2.2 * u)
  | _, _, _, _ => .ub

/-- tensor_views/functions/RtensorConvolve3dSparse.hpp:37-68. -/
def conv3s (r x : SV) (wn : Nat) (es : List (Nat × Nat × α)) (J0 J1 J2 : Nat) (m : Buf α) : Res (Buf α) :=
  match r.dims, r.strides, x.dims, x.strides with
  | [rn0, rn1, rn2, rn3], [rs0, rs1, rs2, rs3], [xn0, xn1, xn2, xn3], [xs0, xs1, xs2, xs3] => do
    Res.assrt (rn3 = wn)
    let p0 := padOf rn0 xn0 J0
    let p1 := padOf rn1 xn1 J1
    let p2 := padOf rn2 xn2 J2
    loop rn0 m fun i0 m => loop rn1 m fun i1 m => loop rn2 m fun i2 m => do
      let R : SV := ⟨r.off + rs0 * i0 + rs1 * i1 + rs2 * i2, [rn3], [rs3]⟩
      Res.forM es m fun m (e : Nat × Nat × α) => do
        Res.need (J2 * xn3 ≠ 0 ∧ J1 ≠ 0)
        let j2 := (e.2.1 / xn3) % J2
        let sd := e.2.1 / (J2 * xn3)
        let j1 := sd % J1
        let j0 := sd / J1
        if (i0 : Int) + j0 - p0 < 0 ∨ (i0 : Int) + j0 - p0 ≥ xn0 then .ok m
        else if (i1 : Int) + j1 - p1 < 0 ∨ (i1 : Int) + j1 - p1 ≥ xn1 then .ok m
        else if (i2 : Int) + j2 - p2 < 0 ∨ (i2 : Int) + j2 - p2 ≥ xn2 then .ok m
        else do
          let a := e.2.1 % xn3
          let u ← rd m (x.off + (xs0 * (i0 + j0 - p0) + xs1 * (i1 + j1 - p1) + xs2 * (i2 + j2 - p2) + xs3 * a))
          let c ← R.at1 e.1
          inc m c (e.2.2 * u)
  | _, _, _, _ => .ub

/-- tensor_views/functions/RtensorConvolve3dSparse.hpp:71-108. -/
def conv3sc (r x : SV) (wn : Nat) (es : List (Nat × Nat × α)) (J0 J1 J2 : Nat) (m : Buf α) : Res (Buf α) :=
  match r.dims, r.strides, x.dims, x.strides with
  | [rn0, rn1, rn2, rn3, rn4], [rs0, rs1, rs2, rs3, rs4], [xn0, xn1, xn2, xn3, xn4], [xs0, xs1, xs2, xs3, xs4] => do
    Res.assrt (rn3 = wn)
    Res.assrt (rn4 = xn4)
    let p0 := padOf rn0 xn0 J0
    let p1 := padOf rn1 xn1 J1
    let p2 := padOf rn2 xn2 J2
    loop rn0 m fun i0 m => loop rn1 m fun i1 m => loop rn2 m fun i2 m => do
      let R : SV := ⟨r.off + rs0 * i0 + rs1 * i1 + rs2 * i2, [rn3, rn4], [rs3, rs4]⟩
      Res.forM es m fun m (e : Nat × Nat × α) => do
        Res.need (J2 * xn3 ≠ 0 ∧ J1 ≠ 0)
        let j2 := (e.2.1 / xn3) % J2
        let sd := e.2.1 / (J2 * xn3)
        let j1 := sd % J1
        let j0 := sd / J1
        if (i0 : Int) + j0 - p0 < 0 ∨ (i0 : Int) + j0 - p0 ≥ xn0 then .ok m
        else if (i1 : Int) + j1 - p1 < 0 ∨ (i1 : Int) + j1 - p1 ≥ xn1 then .ok m
        else if (i2 : Int) + j2 - p2 < 0 ∨ (i2 : Int) + j2 - p2 ≥ xn2 then .ok m
        else do
          let a := e.2.1 % xn3
          loop xn4 m fun c m => do
            let u ← rd m (x.off + (xs0 * (i0 + j0 - p0) + xs1 * (i1 + j1 - p1) + xs2 * (i2 + j2 - p2) + xs3 * a + xs4 * c))
            let q ← R.at2 e.1 c
            inc m q (e.2.2 * u)
  | _, _, _, _ => .ub

/-- The loop over batches shared by tensor_views/functions/RtensorConvolve2d.hpp:106-123, tensor_views/functions/RtensorConvolve3d.hpp:111-133, tensor_views/functions/RtensorConvolve2dSparse.hpp:94-109
and tensor_views/functions/RtensorConvolve3dSparse.hpp:111-128; `slice0` is tensor_views/Rtensor5_view.hpp:205-209 and tensor_views/Rtensor6_view.hpp:224-228. -/
def batches (f : SV → SV → Buf α → Res (Buf α)) (r x : SV) (m : Buf α) : Res (Buf α) := do
  let n ← Res.get x.dims 0
  loop n m fun b m => do
    let R ← r.slice 0 (b : Int)
    let X ← x.slice 0 (b : Int)
    f R X m

/-- The loop over batches and blocks shared by tensor_views/functions/RtensorConvolve2d.hpp:127-146 and tensor_views/functions/RtensorConvolve2dSparse.hpp:113-130; `slice2` is
tensor_views/Rtensor5_view.hpp:217-221. -/
def blocks (f : SV → SV → Buf α → Res (Buf α)) (r x : SV) (m : Buf α) : Res (Buf α) := do
  let n ← Res.get x.dims 0
  let k ← Res.get x.dims 3
  loop n m fun b m => loop k m fun d m => do
    let R ← r.slice 0 (b : Int)
    let R ← R.slice 2 (d : Int)
    let X ← x.slice 0 (b : Int)
    let X ← X.slice 2 (d : Int)
    f R X m

/-- The assertions of tensor_views/functions/RtensorConvolve2d.hpp:106-123 and the loop over batches. -/
def conv2b (r x w : SV) (m : Buf α) : Res (Buf α) := do
  Res.assrt (r.dims[0]? = x.dims[0]?)
  Res.assrt (r.dims[3]? = w.dims[0]?)
  Res.assrt (r.dims[4]? = x.dims[4]?)
  Res.assrt (x.dims[3]? = w.dims[3]?)
  batches (fun R X => conv2ac R X w) r x m

/-- tensor_views/functions/RtensorConvolve2d.hpp:127-146. -/
def conv2bd (r x w : SV) (m : Buf α) : Res (Buf α) := do
  Res.assrt (r.dims[0]? = x.dims[0]?)
  Res.assrt (r.dims[3]? = x.dims[3]?)
  Res.assrt (r.dims[4]? = w.dims[0]?)
  Res.assrt (x.dims[4]? = w.dims[3]?)
  Res.assrt (r.dims[5]? = x.dims[5]?)
  blocks (fun R X => conv2ac R X w) r x m

/-- tensor_views/functions/RtensorConvolve3d.hpp:111-133. -/
def conv3b (r x w : SV) (m : Buf α) : Res (Buf α) := do
  Res.assrt (r.dims[0]? = x.dims[0]?)
  Res.assrt (r.dims[4]? = w.dims[0]?)
  Res.assrt (r.dims[5]? = x.dims[5]?)
  Res.assrt (x.dims[4]? = w.dims[4]?)
  batches (fun R X => conv3ac R X w) r x m

/-- tensor_views/functions/RtensorConvolve2dSparse.hpp:94-109. -/
def conv2sb (r x : SV) (wn : Nat) (es : List (Nat × Nat × α)) (J0 J1 : Nat) (m : Buf α) : Res (Buf α) := do
  Res.assrt (r.dims[0]? = x.dims[0]?)
  Res.assrt (r.dims[3]? = some wn)
  Res.assrt (r.dims[4]? = x.dims[4]?)
  batches (fun R X => conv2sc R X wn es J0 J1) r x m

/-- tensor_views/functions/RtensorConvolve2dSparse.hpp:113-130. -/
def conv2sbd (r x : SV) (wn : Nat) (es : List (Nat × Nat × α)) (J0 J1 : Nat) (m : Buf α) : Res (Buf α) := do
  Res.assrt (r.dims[0]? = x.dims[0]?)
  Res.assrt (r.dims[4]? = some wn)
  Res.assrt (r.dims[3]? = x.dims[3]?)
  Res.assrt (r.dims[5]? = x.dims[5]?)
  blocks (fun R X => conv2sc R X wn es J0 J1) r x m

/-- tensor_views/functions/RtensorConvolve3dSparse.hpp:111-128. -/
def conv3sb (r x : SV) (wn : Nat) (es : List (Nat × Nat × α)) (J0 J1 J2 : Nat) (m : Buf α) : Res (Buf α) := do
  Res.assrt (r.dims[0]? = x.dims[0]?)
  Res.assrt (r.dims[4]? = some wn)
  Res.assrt (r.dims[5]? = x.dims[5]?)
  batches (fun R X => conv3sc R X wn es J0 J1 J2) r x m

/-- Make a result of zeros at `q` (`RtensorA::zero`) and run `f` on it. -/
def make (q : Nat) (dims : List Nat) (f : SV → Buf α → Res (Buf α)) (m : Buf α) : Res (Option SV × Buf α) := do
  let m ← f (fresh q dims) (allocZero m q (asize dims))
  .ok (some (fresh q dims), m)

/-- tensor_views/functions/RtensorConvolve2d.hpp:155-187 `convolve2D(x,w,padding0,padding1)`. -/
def convolve2D (x w : SV) (pad0 pad1 : Int) (q : Nat) (m : Buf α) : Res (Option SV × Buf α) :=
  match w.dims, x.dims with
  | [w0, w1, w2, w3], [x0, x1, x2] => do
    Res.assrt (w3 = x2)
    let I0 ← Conv.sizeOf (x0 + 2 * pad0 - w1 + 1)
    let I1 ← Conv.sizeOf (x1 + 2 * pad1 - w2 + 1)
    make q [I0, I1, w0] (fun r => conv2a r x w) m
  | [w0, w1, w2, w3], [x0, x1, x2, x3] => do
    Res.assrt (w3 = x2)
    let I0 ← Conv.sizeOf (x0 + 2 * pad0 - w1 + 1)
    let I1 ← Conv.sizeOf (x1 + 2 * pad1 - w2 + 1)
    make q [I0, I1, w0, x3] (fun r => conv2ac r x w) m
  | [w0, w1, w2, w3], [x0, x1, x2, x3, x4] => do
    Res.assrt (w3 = x3)
    let I0 ← Conv.sizeOf (x1 + 2 * pad0 - w1 + 1)
    let I1 ← Conv.sizeOf (x2 + 2 * pad1 - w2 + 1)
    make q [x0, I0, I1, w0, x4] (fun r => conv2b r x w) m
  | [w0, w1, w2, w3], [x0, x1, x2, x3, x4, x5] => do
    Res.assrt (w3 = x4)
    let I0 ← Conv.sizeOf (x1 + 2 * pad0 - w1 + 1)
    let I1 ← Conv.sizeOf (x2 + 2 * pad1 - w2 + 1)
    make q [x0, I0, I1, x3, w0, x5] (fun r => conv2bd r x w) m
  | [_, _, _, _], _ => .ok (none, m)
  | _, _ => .throw

/-- tensor_views/functions/RtensorConvolve3d.hpp:140-168 `convolve3D(x,w,padding0,padding1,padding2)`. -/
def convolve3D (x w : SV) (pad0 pad1 pad2 : Int) (q : Nat) (m : Buf α) : Res (Option SV × Buf α) :=
  match w.dims, x.dims with
  | [w0, w1, w2, w3, w4], [x0, x1, x2, x3] => do
    Res.assrt (w4 = x3)
    let I0 ← Conv.sizeOf (x0 + 2 * pad0 - w1 + 1)
    let I1 ← Conv.sizeOf (x1 + 2 * pad1 - w2 + 1)
    let I2 ← Conv.sizeOf (x2 + 2 * pad2 - w3 + 1)
    make q [I0, I1, I2, w0] (fun r => conv3a r x w) m
  | [w0, w1, w2, w3, w4], [x0, x1, x2, x3, x4] => do
    Res.assrt (w4 = x3)
    let I0 ← Conv.sizeOf (x0 + 2 * pad0 - w1 + 1)
    let I1 ← Conv.sizeOf (x1 + 2 * pad1 - w2 + 1)
    let I2 ← Conv.sizeOf (x2 + 2 * pad2 - w3 + 1)
    make q [I0, I1, I2, w0, x4] (fun r => conv3ac r x w) m
  | [w0, w1, w2, w3, w4], [x0, x1, x2, x3, x4, x5] => do
    Res.assrt (w4 = x4)
    let I0 ← Conv.sizeOf (x1 + 2 * pad0 - w1 + 1)
    let I1 ← Conv.sizeOf (x2 + 2 * pad1 - w2 + 1)
    let I2 ← Conv.sizeOf (x3 + 2 * pad2 - w3 + 1)
    make q [x0, I0, I1, I2, w0, x5] (fun r => conv3b r x w) m
  | [_, _, _, _, _], _ => .ok (none, m)
  | _, _ => .throw

/-- tensor_views/functions/RtensorConvolve2dSparse.hpp:138-169; `wm` is `w.m`. -/
def convolve2Ds (x : SV) (wn wm : Nat) (es : List (Nat × Nat × α)) (J0 J1 : Nat) (pad0 pad1 : Int) (q : Nat) (m : Buf α) :
    Res (Option SV × Buf α) :=
  match x.dims with
  | [x0, x1, x2] => do
    Res.assrt (wm = J0 * J1 * x2)
    let I0 ← Conv.sizeOf (x0 + 2 * pad0 - J0 + 1)
    let I1 ← Conv.sizeOf (x1 + 2 * pad1 - J1 + 1)
    make q [I0, I1, wn] (fun r => conv2s r x wn es J0 J1) m
  | [x0, x1, x2, x3] => do
    Res.assrt (wm = J0 * J1 * x2)
    let I0 ← Conv.sizeOf (x0 + 2 * pad0 - J0 + 1)
    let I1 ← Conv.sizeOf (x1 + 2 * pad1 - J1 + 1)
    make q [I0, I1, wn, x3] (fun r => conv2sc r x wn es J0 J1) m
  | [x0, x1, x2, x3, x4] => do
    Res.assrt (wm = J0 * J1 * x3)
    let I0 ← Conv.sizeOf (x1 + 2 * pad0 - J0 + 1)
    let I1 ← Conv.sizeOf (x2 + 2 * pad1 - J1 + 1)
    make q [x0, I0, I1, wn, x4] (fun r => conv2sb r x wn es J0 J1) m
  | [x0, x1, x2, x3, x4, x5] => do
    Res.assrt (wm = J0 * J1 * x4)
    let I0 ← Conv.sizeOf (x1 + 2 * pad0 - J0 + 1)
    let I1 ← Conv.sizeOf (x2 + 2 * pad1 - J1 + 1)
    make q [x0, I0, I1, x3, wn, x5] (fun r => conv2sbd r x wn es J0 J1) m
  | _ => .ok (none, m)

/-- tensor_views/functions/RtensorConvolve3dSparse.hpp:133-159. -/
def convolve3Ds (x : SV) (wn wm : Nat) (es : List (Nat × Nat × α)) (J0 J1 J2 : Nat) (pad0 pad1 pad2 : Int) (q : Nat)
    (m : Buf α) : Res (Option SV × Buf α) :=
  match x.dims with
  | [x0, x1, x2, x3] => do
    Res.assrt (wm = J0 * J1 * J2 * x3)
    let I0 ← Conv.sizeOf (x0 + 2 * pad0 - J0 + 1)
    let I1 ← Conv.sizeOf (x1 + 2 * pad1 - J1 + 1)
    let I2 ← Conv.sizeOf (x2 + 2 * pad2 - J2 + 1)
    make q [I0, I1, I2, wn] (fun r => conv3s r x wn es J0 J1 J2) m
  | [x0, x1, x2, x3, x4] => do
    Res.assrt (wm = J0 * J1 * J2 * x3)
    let I0 ← Conv.sizeOf (x0 + 2 * pad0 - J0 + 1)
    let I1 ← Conv.sizeOf (x1 + 2 * pad1 - J1 + 1)
    let I2 ← Conv.sizeOf (x2 + 2 * pad2 - J2 + 1)
    make q [I0, I1, I2, wn, x4] (fun r => conv3sc r x wn es J0 J1 J2) m
  | [x0, x1, x2, x3, x4, x5] => do
    Res.assrt (wm = J0 * J1 * J2 * x4)
    let I0 ← Conv.sizeOf (x1 + 2 * pad0 - J0 + 1)
    let I1 ← Conv.sizeOf (x2 + 2 * pad1 - J1 + 1)
    let I2 ← Conv.sizeOf (x3 + 2 * pad2 - J2 + 1)
    make q [x0, I0, I1, I2, wn, x5] (fun r => conv3sb r x wn es J0 J1 J2) m
  | _ => .ok (none, m)

/-- The triples `w.for_each` passes on (matrices/CSRmatrix.hpp:217-229), rows and columns not negative. -/
def triplesOf {α : Type} (P : Pun α) (w : CSR α) : Res (List (Nat × Nat × α)) := do
  let es ← w.entries P
  .ok (es.map fun e => (e.1.toNat, e.2.1.toNat, e.2.2))

/-- tensor_views/functions/RtensorConvolve2dSparse.hpp:138-169 with `w` itself; its entries are listed once, not once per output
position. -/
def convolve2Dcsr (P : Pun α) (x : SV) (w : CSR α) (J0 J1 : Nat) (pad0 pad1 : Int) (q : Nat) (m : Buf α) :
    Res (Option SV × Buf α) := do
  let es ← triplesOf P w
  convolve2Ds x w.n.toNat w.m.toNat es J0 J1 pad0 pad1 q m

/-- tensor_views/functions/RtensorConvolve3dSparse.hpp:133-159 with `w` itself. -/
def convolve3Dcsr (P : Pun α) (x : SV) (w : CSR α) (J0 J1 J2 : Nat) (pad0 pad1 pad2 : Int) (q : Nat) (m : Buf α) :
    Res (Option SV × Buf α) := do
  let es ← triplesOf P w
  convolve3Ds x w.n.toNat w.m.toNat es J0 J1 J2 pad0 pad1 pad2 q m

end RConv
end Cnine
