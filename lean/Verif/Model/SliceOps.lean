import Verif.Model.Conv

/-!
# Model of the operations on some slices

tensor_views/functions/ScaleSomeSlicesFn.hpp and GivensSomeSlicesFn.hpp, CPU branches.  A view `RtensorK_view` is an `SV` with `K`
sizes and strides over the memory `m`; `ItensorK_view` is one over the memory `mi` of `int`s.  All views are on the host
(`CNINE_DEVICE_EQ`).  The indices read from `mi` are not checked.
-/

namespace Cnine
namespace SliceOps

open Conv

variable {α : Type}

/-- `arr[i0*s0+i1*s1+i2*s2]`: the address (tensor_views/functions/ScaleSomeSlicesFn.hpp:67). -/
def at3 (v : SV) (i0 i1 i2 : Int) : Res Int := do
  let s0 ← Res.get v.strides 0
  let s1 ← Res.get v.strides 1
  let s2 ← Res.get v.strides 2
  .ok (v.off + (i0 * s0 + i1 * s1 + i2 * s2))

/-- tensor_views/functions/ScaleSomeSlicesFn.hpp:31-50 `operator()(x,indices,coeffs)` for a matrix; tensor_views/Itensor1_view.hpp:73-79
and tensor_views/Rtensor1_view.hpp:118-124 `operator()(i0)`. -/
def scale2 [Mul α] (x ind cs : SV) (mi : Buf Int) (m : Buf α) : Res (Buf α) := do
  let k ← Res.get ind.dims 0
  let n ← Res.get cs.dims 0
  Res.assrt (k = n)
  let n1 ← Res.get x.dims 1
  loop n m fun i m => do
    let p ← ind.at1 i
    let ix ← rd mi p
    let q ← cs.at1 i
    let c ← rd m q
    loop n1 m fun i1 m => do
      let a ← x.at2 ix i1
      let t ← rd m a
      wr m a (t * c)

/-- tensor_views/functions/ScaleSomeSlicesFn.hpp:52-73 `operator()(x,indices,coeffs)` for three axes. -/
def scale3 [Mul α] (x ind cs : SV) (mi : Buf Int) (m : Buf α) : Res (Buf α) := do
  let k ← Res.get ind.dims 0
  let n ← Res.get cs.dims 0
  Res.assrt (k = n)
  let n1 ← Res.get x.dims 1
  let n2 ← Res.get x.dims 2
  loop n m fun i m => do
    let p ← ind.at1 i
    let ix ← rd mi p
    let q ← cs.at1 i
    let c ← rd m q
    loop n1 m fun i1 m => loop n2 m fun i2 m => do
      let a ← at3 x ix i1 i2
      let t ← rd m a
      wr m a (t * c)

/-- tensor_views/functions/GivensSomeSlicesFn.hpp:33-60 `operator()(x,indices,coeffs)` for a matrix. -/
def givens2 [Add α] [Sub α] [Mul α] (x ind cs : SV) (mi : Buf Int) (m : Buf α) : Res (Buf α) := do
  let k ← Res.get ind.dims 0
  let n ← Res.get cs.dims 0
  Res.assrt (k = n)
  let k1 ← Res.get ind.dims 1
  Res.assrt (k1 = 2)
  let c1 ← Res.get cs.dims 1
  Res.assrt (c1 = 2)
  let n1 ← Res.get x.dims 1
  loop n m fun i m => do
    let p ← ind.at2 i 0
    let ix0 ← rd mi p
    let p ← ind.at2 i 1
    let ix1 ← rd mi p
    let q ← cs.at2 i 0
    let c0 ← rd m q
    let q ← cs.at2 i 1
    let c1 ← rd m q
    loop n1 m fun i1 m => do
      let a ← x.at2 ix0 i1
      let t0 ← rd m a
      let b ← x.at2 ix1 i1
      let t1 ← rd m b
      let m ← wr m a (c0 * t0 + c1 * t1)
      wr m b (c0 * t1 - c1 * t0)

/-- tensor_views/functions/GivensSomeSlicesFn.hpp:62-90 `operator()(x,indices,coeffs)` for three axes; line 84 has a minus sign more
than line 53. -/
def givens3 [Add α] [Sub α] [Neg α] [Mul α] (x ind cs : SV) (mi : Buf Int) (m : Buf α) : Res (Buf α) := do
  let k ← Res.get ind.dims 0
  let n ← Res.get cs.dims 0
  Res.assrt (k = n)
  let k1 ← Res.get ind.dims 1
  Res.assrt (k1 = 2)
  let c1 ← Res.get cs.dims 1
  Res.assrt (c1 = 2)
  let n1 ← Res.get x.dims 1
  let n2 ← Res.get x.dims 2
  loop n m fun i m => do
    let p ← ind.at2 i 0
    let ix0 ← rd mi p
    let p ← ind.at2 i 1
    let ix1 ← rd mi p
    let q ← cs.at2 i 0
    let c0 ← rd m q
    let q ← cs.at2 i 1
    let c1 ← rd m q
    loop n1 m fun i1 m => loop n2 m fun i2 m => do
      let a ← at3 x ix0 i1 i2
      let t0 ← rd m a
      let b ← at3 x ix1 i1 i2
      let t1 ← rd m b
      let m ← wr m a (c0 * t0 + c1 * t1)
      wr m b (-(c0 * t1 - c1 * t0))

end SliceOps
end Cnine
