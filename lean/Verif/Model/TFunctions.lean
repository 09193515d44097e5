import Verif.Model.BGtensor
import Verif.Model.Construct
import Verif.Model.Mat
import Verif.Model.Pool

/-!
# Model of the functions that return new tensors

tensors/TensorView_functions.hpp and tensors/TensorView_gen_ops.inc on the host.  A new tensor is made at the address `q`.
`to_array_pool(const Tensor&)` (240-251) is left out: `Tensor` is declared but defined nowhere.
-/

namespace Cnine
namespace TFun

variable {α : Type}

/-- tensors/TensorView.hpp:232-236 `copy()`. -/
def copy [Zero α] (q : Nat) (x : View) (m : Buf α) : Res (View × Buf α) := do
  let R := View.new q x.dims
  let m ← R.assign x (allocZero m q (asize x.dims))
  .ok (R, m)

/-- tensors/TensorView_cumulative_ops.inc:133-145 `subtract(x)`. -/
def subtract [Sub α] (r x : View) (m : Buf α) : Res (Buf α) := do
  Res.assrt (asize r.dims = asize x.dims)
  View.addScaled (fun a b => a - b) r x m

/-- tensors/TensorView_cumulative_ops.inc:49-66 `add(x,c)`. -/
def addTimes [Add α] [Mul α] (r x : View) (c : α) (m : Buf α) : Res (Buf α) := do
  Res.assrt (asize r.dims = asize x.dims)
  View.addScaled (fun a b => a + c * b) r x m

/-- tensors/TensorView_functions.hpp:28-40 `c+x` and `x+c`. -/
def plusC [Zero α] [Add α] (c : α) (q : Nat) (x : View) (m : Buf α) : Res (View × Buf α) := do
  let (r, m) ← copy q x m
  let m ← r.addScalar (fun a => a + c) m
  .ok (r, m)

/-- tensors/TensorView_functions.hpp:42-47 `x+y`. -/
def plus [Zero α] [Add α] (q : Nat) (x y : View) (m : Buf α) : Res (View × Buf α) := do
  let (r, m) ← copy q x m
  let m ← r.addView (fun a b => a + b) y m
  .ok (r, m)

/-- tensors/TensorView_functions.hpp:86-96 `x*c` and `c*x`; tensors/TensorView_gen_ops.inc:33-41 `times(c)` and `x*c`. -/
def timesC [Zero α] [Add α] [Mul α] (c : α) (q : Nat) (x : View) (m : Buf α) : Res (View × Buf α) := do
  let r := View.new q x.dims
  let m ← addTimes r x c (allocZero m q (asize x.dims))
  .ok (r, m)

/-- tensors/TensorView_functions.hpp:53-58 `-x`. -/
def neg [Zero α] [One α] [Add α] [Neg α] [Mul α] (q : Nat) (x : View) (m : Buf α) : Res (View × Buf α) := timesC (-1) q x m

/-- tensors/TensorView_functions.hpp:60-66 `c-x`. -/
def cMinus [Zero α] [One α] [Add α] [Neg α] [Mul α] (c : α) (q : Nat) (x : View) (m : Buf α) : Res (View × Buf α) := do
  let (r, m) ← neg q x m
  let m ← r.addScalar (fun a => a + c) m
  .ok (r, m)

/-- tensors/TensorView_functions.hpp:68-73 `x-c`. -/
def minusC [Zero α] [Add α] [Neg α] (c : α) (q : Nat) (x : View) (m : Buf α) : Res (View × Buf α) := plusC (-c) q x m

/-- tensors/TensorView_functions.hpp:75-80 `x-y`. -/
def minus [Zero α] [Sub α] (q : Nat) (x y : View) (m : Buf α) : Res (View × Buf α) := do
  let (r, m) ← copy q x m
  let m ← subtract r y m
  .ok (r, m)

/-- include/Gdims.hpp:249-254 `Mprod(y)`: a vector of negative length throws; with one empty operand the loop runs to the largest
unsigned number. -/
def mprodDims (x y : List Nat) : Res (List Nat) := do
  Res.assrt (2 ≤ x.length + y.length)
  Res.need (x ≠ [] ∧ y ≠ [])
  .ok (x.dropLast ++ y.tail)

/-- tensors/TensorView_functions.hpp:104-114 `x*y` and `mprod(x,y)`. -/
def mprod [Zero α] [Add α] [Mul α] (q : Nat) (x y : View) (m : Buf α) : Res (View × Buf α) := do
  let d ← mprodDims x.dims y.dims
  let R := View.new q d
  let m := allocZero m q (asize d)
  let m ← if 0 < asize d then BG.viewMprod R x y m else .ok m
  .ok (R, m)

/-- tensors/TensorView.hpp:305-308 `view2()` with 785-786 `view2_of(const TensorView<double>&)`: the memory is taken for `float`s, two
of which fill a `double`; `v` counts in `double`s, the result in `float`s. -/
def view2d (v : View) : Res RV2 := do
  let w ← BG.view2 v
  .ok ⟨2 * w.arr, w.n0, w.n1, w.s0, w.s1⟩

/-- tensors/TensorView.hpp:561-573 `add_mprod(x,y)` for `double`. -/
def addMprodD [Zero α] [Add α] [Mul α] (r x y : View) (m : Buf α) : Res (Buf α) := do
  let r0 ← Res.get r.dims 0
  let r1 ← Res.get r.dims 1
  let x0 ← Res.get x.dims 0
  let x1 ← Res.get x.dims 1
  let y0 ← Res.get y.dims 0
  let y1 ← Res.get y.dims 1
  Res.assrt (x0 = r0)
  Res.assrt (y1 = r1)
  Res.assrt (x1 = y0)
  let r ← view2d r
  let x ← view2d x
  let y ← view2d y
  r.addMatmulAA x y m

/-- tensors/TensorView_functions.hpp:104-114 for `double`; memory and `allocZero` in halves of a `double`. -/
def mprodD [Zero α] [Add α] [Mul α] (q : Nat) (x y : View) (m : Buf α) : Res (View × Buf α) := do
  let d ← mprodDims x.dims y.dims
  let R := View.new q d
  let m := allocZero m (2 * q) (2 * asize d)
  let m ← if 0 < asize d then addMprodD R x y m else .ok m
  .ok (R, m)

/-- tensors/TensorView_functions.hpp:131-135 `kron(x,y)` with include/Gdims.hpp:509-515 `tprod`. -/
def kron [Zero α] [Add α] [Mul α] (q : Nat) (x y : View) (m : Buf α) : Res (View × Buf α) := do
  Res.assrt (x.dims.length = y.dims.length)
  let d := List.zipWith (· * ·) x.dims y.dims
  let R := View.new q d
  let m ← R.addTprod x y (allocZero m q (asize d))
  .ok (R, m)

/-- tensors/TensorView_functions.hpp:139-145 `oplus(x,y)` with include/gvectr.hpp:131-137 `operator+`. -/
def oplus [Zero α] (q : Nat) (x y : View) (m : Buf α) : Res (View × Buf α) := do
  Res.assrt (x.dims.length = y.dims.length)
  let d := List.zipWith (· + ·) x.dims y.dims
  let R := View.new q d
  let m := allocZero m q (asize d)
  let b ← R.blockDims x.dims
  let m ← b.assign x m
  let b ← R.block y.dims x.dims
  let m ← b.assign y m
  .ok (R, m)

/-- tensors/TensorView_functions.hpp:152-154 `max(x)`. -/
def max [Zero α] [LT α] [DecidableRel (α := α) (· < ·)] (x : View) (m : Buf α) : Res α :=
  x.extremum (fun a t => decide (t < a)) m

/-- tensors/TensorView_functions.hpp:162-164 `min(x)`: calls `max()`. -/
def min [Zero α] [LT α] [DecidableRel (α := α) (· < ·)] (x : View) (m : Buf α) : Res α :=
  x.extremum (fun a t => decide (t < a)) m

/-- tensors/TensorView_lambdas.inc:220-337: the loops of `zip(y,z,lambda)` for ranks 1 to 5, with one function call per nesting. -/
def zipLoops (f : Nat → Nat → Nat → Buf α → Res (Buf α)) :
    List Nat → List Nat → List Nat → List Nat → Nat → Nat → Nat → Buf α → Res (Buf α)
  | n :: ns, x :: xs, y :: ys, z :: zs, a, b, c, m => loop n m fun i m => zipLoops f ns xs ys zs (a + i * x) (b + i * y) (c + i * z) m
  | [], _, _, _, a, b, c, m => f a b c m
  | _, _, _, _, _, _, _, _ => .ub

/-- tensors/TensorView_lambdas.inc:212-342 `zip(y,z,lambda)`; rank 0 returns at once. -/
def zip3 (x y z : View) (f : Nat → Nat → Nat → Buf α → Res (Buf α)) (m : Buf α) : Res (Buf α) := do
  Res.assrt (x.dims = y.dims)
  Res.assrt (x.dims = z.dims)
  if x.dims.length = 0 then .ok m
  else if x.dims.length ≤ 5 then zipLoops f x.dims x.strides y.strides z.strides x.off y.off z.off m
  else do
    let l ← foreachIndex x.dims
    Res.forM l m fun m ix => do
      let a ← x.addr ix
      let b ← y.addr ix
      let c ← z.addr ix
      f a b c m

/-- tensors/TensorView_gen_ops.inc:19-24 `odot(y)` and tensors/TensorView_functions.hpp:122-123. -/
def odot [Zero α] [Mul α] (q : Nat) (x y : View) (m : Buf α) : Res (View × Buf α) := do
  let r := View.new q x.dims
  let m ← zip3 x y r (fun a b c m => do
    let u ← m.read a
    let v ← m.read b
    m.write c (u * v)) (allocZero m q (asize x.dims))
  .ok (r, m)

/-- tensors/TensorView_gen_ops.inc:26-30 `sum(d)`. -/
def sumAxis [Zero α] [Add α] (d : Nat) (q : Nat) (x : View) (m : Buf α) : Res (View × Buf α) := do
  let ds ← gvRemove x.dims d
  let R := View.new q ds
  let m ← R.addSum d x (allocZero m q (asize ds))
  .ok (R, m)

/-- `std::copy(M.mem(),M.mem()+n,…)`: the values read. -/
def readBlock (m : Buf α) (o : Nat) : Nat → Res (List α)
  | 0 => .ok []
  | n + 1 => do
    let a ← m.read o
    let l ← readBlock m (o + 1) n
    .ok (a :: l)

/-- tensors/TensorView_functions.hpp:253-265 `to_array_pool(M)`. -/
def toArrayPool (M : View) (m : Buf α) : Res (Pool α) := do
  Res.assrt (M.dims.length = 2)
  let a ← isRegular M.strides M.dims
  Res.assrt a
  let n0 ← Res.get M.dims 0
  let n1 ← Res.get M.dims 1
  let p ← Pool.ofShape (α := α) n0 n1
  let l ← readBlock m M.off p.memsize.toNat
  let arr ← p.arr.wrList 0 l
  .ok { p with arr := arr }

/-- tensors/TensorView_functions.hpp:272-275 `Identity(n)`. -/
def identity [Zero α] [One α] (q n : Nat) (m : Buf α) : Res (View × Buf α) := View.identityT q [n, n] m

/-- tensors/TensorView_functions.hpp:277-282 `UnitVec(n,i)`. -/
def unitVec [Zero α] [One α] (q n i : Nat) (m : Buf α) : Res (View × Buf α) := View.unitT q n i m

end TFun
end Cnine
