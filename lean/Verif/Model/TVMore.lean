import Verif.Model.Spaces
import Verif.Model.CView

/-!
# Model of hashes, norms, conversions to views of fixed order, and random unitary matrices

tensors/TensorView.hpp, tensors/TensorView_scalar_ops.inc and tensors/TensorView_constructors.hpp on the host.  `size_t` has 64 bits;
what `std::hash` gives for an element or for an `int` is an arbitrary function.  Numbers are exact and `root` is `sqrt`; `conj` is the
identity for real types.
-/

namespace Cnine
namespace TV

variable {α : Type}

/-! ### hashes -/

/-- `t=(t^h)<<1` (tensors/TensorView.hpp:819, 822; include/Gdims.hpp:528). -/
def mix (t h : BitVec 64) : BitVec 64 := (t ^^^ h) <<< 1

/-- include/Gdims.hpp:523-531 `hash<Gdims>`. -/
def hashDims (hi : Nat → BitVec 64) (dims : List Nat) : BitVec 64 := dims.foldl (fun t n => mix t (hi n)) 0

/-- tensors/TensorView.hpp:812-827 `hash<TensorView>` (= tensors/Ltensor.hpp:1024-1038 `hash<Ltensor>`). -/
def hash (hi : Nat → BitVec 64) (he : α → BitVec 64) (v : View) (m : Buf α) : Res (BitVec 64) := do
  let t := hashDims hi v.dims
  let c ← isRegular v.strides v.dims
  if c then loop (asize v.dims) t fun i t => do
    let a ← m.read (v.off + i)
    .ok (mix t (he a))
  else v.forEachIx t fun _ c t => do
    let a ← m.read c
    .ok (mix t (he a))

/-! ### norms -/

/-- tensors/TensorView_scalar_ops.inc:41-53 `max_abs()` for real types. -/
def maxAbs [Zero α] (abs : α → α) (less : α → α → Bool) (v : View) (m : Buf α) : Res α :=
  if asize v.dims = 0 then .ok 0
  else do
    let t ← m.read v.off
    View.reduce (fun t a => if less t (abs a) then abs a else t) t v m

/-- tensors/TensorView_scalar_ops.inc:127-131 `norm()` for real types. -/
def norm [Zero α] [Add α] [Mul α] (root : α → α) (v : View) (m : Buf α) : Res α := do
  let n ← v.norm2View m
  .ok (root n)

/-- tensors/TensorView.hpp:502-504 `normalize()`. -/
def normalize [Zero α] [One α] [Add α] [Mul α] [Div α] (root : α → α) (v : View) (m : Buf α) : Res (Buf α) := do
  let n ← norm root v m
  v.inplaceTimes (fun x => x * (1 / n)) m

/-! ### unitary matrices -/

/-- tensors/TensorView_constructors.hpp:149-156: one round of `random_unitary`.  The vector `v` is made at `p`, the product `u*u.inp(v)` at
`pt j`; both are released again. -/
def unitaryRow [Zero α] [One α] [Add α] [Sub α] [Mul α] [Div α] (conj root : α → α) (gauss junk : Nat → α) (R : View) (n i p : Nat)
    (pt : Nat → Nat) (m : Buf α) : Res (Buf α) := do
  let (v, m) ← View.ofCode (fun _ => 0) gauss junk 4 p [n] m
  let m ← loop i m fun j m => do
    let u ← R.row j
    let c ← Space.inp conj u v m
    let (t, m) ← TFun.timesC c (pt j) u m
    TFun.subtract v t m
  let r ← R.row i
  let n2 ← Space.norm2 conj v m
  TFun.addTimes r v (1 / root n2) m

/-- tensors/TensorView_constructors.hpp:144-159 `random_unitary(dims)`; round `i` draws the numbers `gauss i`. -/
def randomUnitary [Zero α] [One α] [Add α] [Sub α] [Mul α] [Div α] (conj root : α → α) (gauss : Nat → Nat → α) (junk : Nat → α) (q : Nat)
    (pv : Nat → Nat) (pt : Nat → Nat → Nat) (dims : List Nat) (m : Buf α) : Res (View × Buf α) := do
  let R := View.new q dims
  let m := allocZero m q (asize dims)
  Res.assrt (dims.length = 2)
  let n ← Res.get dims 0
  let n' ← Res.get dims 1
  Res.assrt (n = n')
  let m ← loop n m fun i m => unitaryRow conj root (gauss i) junk R n i (pv i) (pt i) m
  .ok (R, m)

/-- tensors/TensorView_scalar_ops.inc:181-188 `unitary_error()` for `float`: `A` is made at `q`. -/
def unitaryError [Zero α] [One α] [Add α] [Neg α] [Mul α] (root : α → α) (x : View) (q : Nat) (m : Buf α) : Res α := do
  let n ← Res.get x.dims 0
  let n' ← Res.get x.dims 1
  Res.assrt (n = n')
  let A := View.new q [n, n]
  let m := allocZero m q (asize [n, n])
  let y ← x.transp
  let m ← BG.viewMprod A x y m
  let m ← loop n m fun i m => do
    let c ← A.addr [i, i]
    incCell m c (-1)
  norm root A m

/-- tensors/TensorView_scalar_ops.inc:181-188 `unitary_error()` for complex types, with 133-137 `norm()`: the matrix is multiplied by its transpose
there as well. -/
def unitaryErrorC [Zero α] [One α] [Add α] [Neg α] [Mul α] (conj root : α → α) (x : View) (q : Nat) (m : Buf α) : Res α := do
  let n ← Res.get x.dims 0
  let n' ← Res.get x.dims 1
  Res.assrt (n = n')
  let A := View.new q [n, n]
  let m := allocZero m q (asize [n, n])
  let y ← x.transp
  let m ← BG.viewMprod A x y m
  let m ← loop n m fun i m => do
    let c ← A.addr [i, i]
    incCell m c (-1)
  let n2 ← Space.norm2 conj A m
  .ok (root n2)

/-! ### views of fixed order -/

/-- tensors/TensorView.hpp:300-303 `view1()`, 774-775 `view1_of` for `float`, 772-773 for `int`, and 282-286 the conversion to
`Rtensor1_view`.  `stride(i)` is an `int` (393-395); strides are taken to fit. -/
def view1 (v : View) : Res RV1 := do
  Res.assrt (v.dims.length = 1)
  let n0 ← Res.get v.dims 0
  let s0 ← Res.get v.strides 0
  .ok ⟨v.off, n0, s0⟩

/-- tensors/TensorView.hpp:305-308 `view2()`, 783-784 `view2_of` for `float`, 781-782 for `int`, and 288-292 the conversion to
`Rtensor2_view`. -/
def view2 (v : View) : Res RV2 := do
  Res.assrt (v.dims.length = 2)
  let n0 ← Res.get v.dims 0
  let n1 ← Res.get v.dims 1
  let s0 ← Res.get v.strides 0
  let s1 ← Res.get v.strides 1
  .ok ⟨v.off, n0, n1, s0, s1⟩

/-- tensors/TensorView.hpp:310-313 `view3()`, 793-794 `view3_of` for `float`, 791-792 for `int`, and 294-298 the conversion to
`Rtensor3_view`. -/
def view3 (v : View) : Res RV3 := do
  Res.assrt (v.dims.length = 3)
  let n0 ← Res.get v.dims 0
  let n1 ← Res.get v.dims 1
  let n2 ← Res.get v.dims 2
  let s0 ← Res.get v.strides 0
  let s1 ← Res.get v.strides 1
  let s2 ← Res.get v.strides 2
  .ok ⟨v.off, n0, n1, n2, s0, s1, s2⟩

/-- tensors/TensorView.hpp:778-779 `view1_of` for `complex<float>`: cell `c` of the tensor is the pair of floats at `2*c` and `2*c+1`. -/
def cview1 (v : View) : Res CV1 := do
  Res.assrt (v.dims.length = 1)
  let n0 ← Res.get v.dims 0
  let s0 ← Res.get v.strides 0
  .ok ⟨2 * v.off, 2 * v.off + 1, n0, 2 * s0⟩

/-- tensors/TensorView.hpp:787-789 `view2_of` for `complex<float>`. -/
def cview2 (v : View) : Res CV2 := do
  Res.assrt (v.dims.length = 2)
  let n0 ← Res.get v.dims 0
  let n1 ← Res.get v.dims 1
  let s0 ← Res.get v.strides 0
  let s1 ← Res.get v.strides 1
  .ok ⟨2 * v.off, 2 * v.off + 1, n0, n1, 2 * s0, 2 * s1⟩

/-- tensors/TensorView.hpp:797-799 `view3_of` for `complex<float>`. -/
def cview3 (v : View) : Res CV3 := do
  Res.assrt (v.dims.length = 3)
  let n0 ← Res.get v.dims 0
  let n1 ← Res.get v.dims 1
  let n2 ← Res.get v.dims 2
  let s0 ← Res.get v.strides 0
  let s1 ← Res.get v.strides 1
  let s2 ← Res.get v.strides 2
  .ok ⟨2 * v.off, 2 * v.off + 1, n0, n1, n2, 2 * s0, 2 * s1, 2 * s2⟩

/-- tensors/TensorView.hpp:315-317 `flat_view()`, 801-803 `flat_view_of`. -/
def flatView (v : View) : Res RV1 := do
  let c ← isContiguous v.strides v.dims
  Res.assrt c
  .ok ⟨v.off, asize v.dims, 1⟩

end TV
end Cnine
