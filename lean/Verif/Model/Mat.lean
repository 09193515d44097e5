import Verif.Model.Elem
import Mathlib.Algebra.Group.Defs

/-!
# Model of matrix-vector products, tensor products, axis sums and broadcasts of TensorView

CPU branches; the `CNINE_NDIMS_IS_*` checks are compiled out without range checking, so a tensor of
the wrong rank is read through `dims[i]`/`strides[i]` as it stands.
-/

namespace Cnine
namespace View

variable {α : Type _}

/-- tensors/TensorView_access.inc:29-32 `operator()(i0)` via include/GstridesB.hpp:196-198. -/
def at1 (v : View) (i0 : Nat) : Res Nat := do
  let s0 ← Res.get v.strides 0
  .ok (v.off + i0 * s0)

/-- tensors/TensorView_access.inc:34-37 `operator()(i0,i1)` via include/GstridesB.hpp:200-202. -/
def at2 (v : View) (i0 i1 : Nat) : Res Nat := do
  let s0 ← Res.get v.strides 0
  let s1 ← Res.get v.strides 1
  .ok (v.off + (i0 * s0 + i1 * s1))

/-- tensors/TensorView_access.inc:39-42 `operator()(i0,i1,i2)` via include/GstridesB.hpp:204-206. -/
def at3 (v : View) (i0 i1 i2 : Nat) : Res Nat := do
  let s0 ← Res.get v.strides 0
  let s1 ← Res.get v.strides 1
  let s2 ← Res.get v.strides 2
  .ok (v.off + (i0 * s0 + i1 * s1 + i2 * s2))

/-- tensors/TensorView_access.inc:140-143 `inc(i0,x)`. -/
def inc1 [Add α] (v : View) (i0 : Nat) (t : α) (m : Buf α) : Res (Buf α) := do
  let c ← v.at1 i0
  let a ← m.read c
  m.write c (a + t)

/-- tensors/TensorView.hpp:515-535 `add_mvprod(x,y)`. -/
def addMvprod [Zero α] [Add α] [Mul α] (r x y : View) (m : Buf α) : Res (Buf α) := do
  let x0 ← Res.get x.dims 0
  let r0 ← Res.get r.dims 0
  Res.assrt (x0 = r0)
  let x1 ← Res.get x.dims 1
  let y0 ← Res.get y.dims 0
  Res.assrt (x1 = y0)
  loop r0 m fun i m => do
    let t ← loop x1 (0 : α) fun k t => do
      let a ← x.at2 i k
      let p ← m.read a
      let b ← y.at1 k
      let q ← m.read b
      .ok (t + p * q)
    r.inc1 i t m

/-- tensors/TensorView.hpp:538-558 `add_mvprod_T(x,y)`: the assertion compares `y.dims[0]` with
itself and the inner loop runs over `x.dims[1]`. -/
def addMvprodT [Zero α] [Add α] [Mul α] (r x y : View) (m : Buf α) : Res (Buf α) := do
  let x1 ← Res.get x.dims 1
  let r0 ← Res.get r.dims 0
  Res.assrt (x1 = r0)
  let y0 ← Res.get y.dims 0
  Res.assrt (y0 = y0)
  loop r0 m fun i m => do
    let t ← loop x1 (0 : α) fun k t => do
      let a ← x.at2 k i
      let p ← m.read a
      let b ← y.at1 k
      let q ← m.read b
      .ok (t + p * q)
    r.inc1 i t m

/-- `r.block(y.dims, o).add(y, c)`: the body shared by the three loop nests of `add_tprod`. -/
def tprodBody [Add α] [Mul α] (r y : View) (o : List Nat) (xc : Nat) (m : Buf α) : Res (Buf α) := do
  let b ← r.block y.dims o
  let c ← m.read xc
  addScaled (fun a v => a + c * v) b y m

/-- tensors/TensorView.hpp:594-630 `add_tprod(x,y)`: ranks 1, 2 and 3; other ranks only print.
(`block(i0,m0)` of rank 1 asserts `ndims()==1`, tensors/TensorView_subtensors.inc:69-72.) -/
def addTprod [Add α] [Mul α] (r x y : View) (m : Buf α) : Res (Buf α) := do
  Res.assrt (x.dims.length = y.dims.length)
  match x.dims, y.dims with
  | [x0], [y0] => do
    let r0 ← Res.get r.dims 0
    Res.assrt (r0 = x0 * y0)
    loop x0 m fun i m => do
      Res.assrt (r.dims.length = 1)
      let c ← x.at1 i
      tprodBody r y [i * y0] c m
  | [x0, x1], [y0, y1] => do
    let r0 ← Res.get r.dims 0
    Res.assrt (r0 = x0 * y0)
    let r1 ← Res.get r.dims 1
    Res.assrt (r1 = x1 * y1)
    loop x0 m fun i m => loop x1 m fun j m => do
      let c ← x.at2 i j
      tprodBody r y [i * y0, j * y1] c m
  | [x0, x1, x2], [y0, y1, y2] => do
    let r0 ← Res.get r.dims 0
    Res.assrt (r0 = x0 * y0)
    let r1 ← Res.get r.dims 1
    Res.assrt (r1 = x1 * y1)
    let r2 ← Res.get r.dims 2
    Res.assrt (r2 = x2 * y2)
    loop x0 m fun i m => loop x1 m fun j m => loop x2 m fun k m => do
      let c ← x.at3 i j k
      tprodBody r y [i * y0, j * y1, k * y2] c m
  | _, _ => .ok m

/-- tensors/TensorView_cumulative_ops.inc:183-187 `add_sum(d,x)`. -/
def addSum [Add α] (r : View) (d : Nat) (x : View) (m : Buf α) : Res (Buf α) := do
  Res.assrt (d < x.dims.length)
  let n ← Res.get x.dims d
  loop n m fun i m => do
    let s ← x.slice d i
    addView (· + ·) r s m

/-- tensors/TensorView_cumulative_ops.inc:295-301 `add_broadcast(d,x)`: `slice(d)` converts the axis
number `d` to a one-entry index (include/Gindex.hpp `Gindex(const int i0)`), i.e. it selects
position `d` of axis 0, in every round. -/
def addBroadcast [Add α] (r : View) (d : Nat) (x : View) (m : Buf α) : Res (Buf α) := do
  Res.assrt (d < r.dims.length)
  let n ← Res.get r.dims d
  loop n m fun _ m => do
    let s ← r.sliceIx [d]
    addView (· + ·) s x m

/-- tensors/TensorView.hpp:657-672 `add_mul_columns(x,y)` (and 636-650, 682-697, 708-723 with another
`op`): the CPU loops address `arr[i*nc+j]` whatever the strides are. -/
def addMulColumns (op : α → α → α → α) (r x y : View) (m : Buf α) : Res (Buf α) := do
  Res.assrt (x.dims.length = 2)
  Res.assrt (y.dims.length = 1)
  let n ← Res.get r.dims 0
  let nc ← Res.get r.dims 1
  let x0 ← Res.get x.dims 0
  Res.assrt (x0 = n)
  let x1 ← Res.get x.dims 1
  Res.assrt (x1 = nc)
  let y0 ← Res.get y.dims 0
  Res.assrt (y0 = nc)
  loop n m fun i m => loop nc m fun j m => do
    let a ← m.read (r.off + (i * nc + j))
    let b ← m.read (x.off + (i * nc + j))
    let c ← m.read (y.off + j)
    m.write (r.off + (i * nc + j)) (op a b c)

/-- tensors/TensorView.hpp:734-750 `add_column_inps_XC(x,y)` for real types: `set(i,t)` overwrites. -/
def addColumnInps [Zero α] [Add α] [Mul α] (r x y : View) (m : Buf α) : Res (Buf α) := do
  Res.assrt (r.dims.length = 1)
  let r0 ← Res.get r.dims 0
  let nc ← Res.get x.dims 1
  Res.assrt (r0 = nc)
  let n ← Res.get x.dims 0
  loop nc m fun i m => do
    let t ← loop n (0 : α) fun j t => do
      let a ← x.at2 j i
      let p ← m.read a
      let b ← y.at2 j i
      let q ← m.read b
      .ok (t + p * q)
    let c ← r.at1 i
    m.write c t

end View
end Cnine
