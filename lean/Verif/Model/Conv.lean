import Verif.Model.Rows
import Verif.Model.RView

/-!
# Model of the convolutions

hpc/Convolve1D.hpp and hpc/Convolve2D.hpp, CPU branches.

The backward passes run through the filter with negative strides, so addresses and strides are integers here.  (The strides of
a TensorView are `size_t`; `-w.stride(0)` is stored modulo 2^64, and sums modulo 2^64 that land in the buffer are the integer
sums.)  An access at a negative or unallocated address is undefined behaviour.  Sizes are natural numbers.  `int` overflow is
not modelled.  The arithmetic is an arbitrary algebraic structure instead of `float`.  `CNINE_CHECK_RANGE`,
`CNINE_CHECK_DEV3` and `CNINE_NDIMS_IS_*` are compiled out or trivial on the CPU.
-/

namespace Cnine

/-- A TensorView with integer base address and integer strides: `arr`, `dims`, `strides` (tensors/TensorView.hpp:101-130). -/
structure SV where
  off : Int
  dims : List Nat
  strides : List Int
deriving DecidableEq, Repr

namespace Conv

variable {α : Type}

/-- `arr[c]` as an rvalue, `c` counted from the start of memory. -/
def rd (m : Buf α) (c : Int) : Res α := if 0 ≤ c then m.read c.toNat else .ub

/-- `arr[c]=v`. -/
def wr (m : Buf α) (c : Int) (v : α) : Res (Buf α) := if 0 ≤ c then m.write c.toNat v else .ub

/-- `arr[c]+=t`. -/
def inc [Add α] (m : Buf α) (c : Int) (t : α) : Res (Buf α) := do
  let a ← rd m c
  wr m c (a + t)

/-- `for(int j=lo; j<hi; j++)`. -/
def loopI {σ : Type} (lo hi : Int) (s : σ) (body : Int → σ → Res σ) : Res σ :=
  Res.forM (List.range (hi - lo).toNat) s (fun s k => body (lo + k) s)

/-- hpc/Convolve1D.hpp:37,50,65 (= hpc/Convolve2D.hpp:73-74,88-89,106-107):
`(r-x+w-1)/2`, with the division of `int` rounding towards zero. -/
def padOf (r x w : Nat) : Int := Int.tdiv ((r : Int) - x + w - 1) 2

end Conv

open Conv

namespace SV

variable {α : Type}

/-- tensors/TensorView_access.inc:29-32 `operator()(i0)` via include/GstridesB.hpp:196-198. -/
def at1 (v : SV) (i0 : Int) : Res Int := do
  let s0 ← Res.get v.strides 0
  .ok (v.off + i0 * s0)

/-- tensors/TensorView_access.inc:34-37 `operator()(i0,i1)` via include/GstridesB.hpp:200-202. -/
def at2 (v : SV) (i0 i1 : Int) : Res Int := do
  let s0 ← Res.get v.strides 0
  let s1 ← Res.get v.strides 1
  .ok (v.off + (i0 * s0 + i1 * s1))

/-- tensors/TensorView_subtensors.inc:112-115 `slice(d,i)`; `i` is unchecked. -/
def slice (v : SV) (d : Nat) (i : Int) : Res SV := do
  let s ← Res.get v.strides d
  let ds ← gvRemove v.dims d
  let ss ← gvRemove v.strides d
  .ok ⟨v.off + s * i, ds, ss⟩

/-- tensors/TensorView_reshapes.inc:31-35 `transp(a,b)`. -/
def transpAB (v : SV) (a b : Nat) : Res SV := do
  Res.assrt (a < v.dims.length)
  Res.assrt (b < v.dims.length)
  let da ← Res.get v.dims a
  let db ← Res.get v.dims b
  let sa ← Res.get v.strides a
  let sb ← Res.get v.strides b
  let ds ← gvSet v.dims a db
  let ds ← gvSet ds b da
  let ss ← gvSet v.strides a sb
  let ss ← gvSet ss b sa
  .ok ⟨v.off, ds, ss⟩

/-- tensors/TensorView_reshapes.inc:75-78 `unsqueeze(d)` for `d>0` (the only use here). -/
def unsqueeze (v : SV) (d : Nat) : Res SV := do
  let s ← Res.get v.strides (d - 1)
  let ds ← gvInsert v.dims d 1
  let ss ← gvInsert v.strides d s
  .ok ⟨v.off, ds, ss⟩

/-- tensors/TensorView.hpp:515-535 `add_mvprod(x,y)`. -/
def addMvprod [Zero α] [Add α] [Mul α] (r x y : SV) (m : Buf α) : Res (Buf α) := do
  let x0 ← Res.get x.dims 0
  let r0 ← Res.get r.dims 0
  Res.assrt (x0 = r0)
  let x1 ← Res.get x.dims 1
  let y0 ← Res.get y.dims 0
  Res.assrt (x1 = y0)
  loop r0 m fun i m => do
    let t ← loop x1 (0 : α) fun k t => do
      let a ← x.at2 i k
      let p ← rd m a
      let b ← y.at1 k
      let q ← rd m b
      .ok (t + p * q)
    let c ← r.at1 i
    inc m c t

/-- tensors/TensorView.hpp:561-573 `add_mprod(x,y)` with 305-308 `view2()` and tensor_views/Rtensor2_view.hpp:238-264
`add_matmul_AA`. -/
def addMprod [Zero α] [Add α] [Mul α] (r x y : SV) (m : Buf α) : Res (Buf α) := do
  let x0 ← Res.get x.dims 0
  let r0 ← Res.get r.dims 0
  Res.assrt (x0 = r0)
  let y1 ← Res.get y.dims 1
  let r1 ← Res.get r.dims 1
  Res.assrt (y1 = r1)
  let x1 ← Res.get x.dims 1
  let y0 ← Res.get y.dims 0
  Res.assrt (x1 = y0)
  Res.assrt (r.dims.length = 2)
  Res.assrt (x.dims.length = 2)
  Res.assrt (y.dims.length = 2)
  loop r0 m fun a m => loop r1 m fun b m => do
    let t ← loop x1 (0 : α) fun i t => do
      let p ← x.at2 a i
      let u ← rd m p
      let q ← y.at2 i b
      let v ← rd m q
      .ok (t + u * v)
    let c ← r.at2 a b
    inc m c t

end SV

namespace Conv

variable {α : Type}

/-- hpc/Convolve1D.hpp:34-45: one axis, no channels. -/
def conv1d1 [Zero α] [Add α] [Mul α] (r x w : SV) (wx : Nat) (m : Buf α) : Res (Buf α) := do
  Res.assrt (w.dims.length = 1)
  let r0 ← Res.get r.dims 0
  let x0 ← Res.get x.dims 0
  let pad0 := padOf r0 x0 wx
  loop r0 m fun i0 m => do
    let t ← loopI (max 0 (pad0 - i0)) (min wx (x0 - i0 + pad0)) (0 : α) fun j0 t => do
      let a ← x.at1 (i0 + j0 - pad0)
      let p ← rd m a
      let b ← w.at1 j0
      let q ← rd m b
      .ok (t + p * q)
    let c ← r.at1 i0
    wr m c t

/-- hpc/Convolve1D.hpp:47-60 (`prod` is `add_mvprod`) and 62-75 (`add_mprod`). -/
def conv1d2 (prod : SV → SV → SV → Buf α → Res (Buf α)) (r x w : SV) (wx : Nat) (m : Buf α) : Res (Buf α) := do
  Res.assrt (w.dims.length = 3)
  let r0 ← Res.get r.dims 0
  let x0 ← Res.get x.dims 0
  let pad0 := padOf r0 x0 wx
  loop r0 m fun i0 m => do
    let R ← r.slice 0 i0
    loopI (max 0 (pad0 - i0)) (min wx (x0 - i0 + pad0)) m fun j0 m => do
      let W ← w.slice 0 j0
      let X ← x.slice 0 (i0 + j0 - pad0)
      prod R W X m

/-- hpc/Convolve1D.hpp:27-75 `Convolve1D()(r,x,w)` without the case of five axes; there is no case of four. -/
def conv1dCore [Zero α] [Add α] [Mul α] (r x w : SV) (m : Buf α) : Res (Buf α) := do
  Res.assrt (x.dims.length = r.dims.length)
  let wx ← Res.get w.dims 0
  match r.dims.length with
  | 1 => conv1d1 r x w wx m
  | 2 => conv1d2 SV.addMvprod r x w wx m
  | 3 => conv1d2 SV.addMprod r x w wx m
  | _ => .ok m

/-- hpc/Convolve1D.hpp:27-84 `Convolve1D()(r,x,w)`.  The slices of line 81 have four axes, for which there is no case.
`ord` is the order in which `MultiLoop` runs the rounds. -/
def conv1d [Zero α] [Add α] [Mul α] (ord : List Nat) (r x w : SV) (m : Buf α) : Res (Buf α) :=
  if r.dims.length = 5 then do
    Res.assrt (x.dims.length = r.dims.length)
    let _ ← Res.get w.dims 0
    let r0 ← Res.get r.dims 0
    let x0 ← Res.get x.dims 0
    Res.assrt (r0 = x0)
    Res.forM ord m fun m b => do
      let R ← r.slice 0 (b : Int)
      let X ← x.slice 0 (b : Int)
      conv1dCore R X w m
  else conv1dCore r x w m

/-- hpc/Convolve1D.hpp:93-107 `Convolve1D_back0()(r,x,w)`. -/
def conv1dBack0 [Zero α] [Add α] [Mul α] (ord : List Nat) (r x w : SV) (m : Buf α) : Res (Buf α) := do
  if w.dims.length = 1 then do
    let n0 ← Res.get w.dims 0
    let s0 ← Res.get w.strides 0
    conv1d ord x r ⟨w.off + ((n0 : Int) - 1) * s0, [n0], [-s0]⟩ m
  else do
    Res.assrt (w.dims.length = 3)
    let n0 ← Res.get w.dims 0
    let n1 ← Res.get w.dims 1
    let n2 ← Res.get w.dims 2
    let s0 ← Res.get w.strides 0
    let s1 ← Res.get w.strides 1
    let s2 ← Res.get w.strides 2
    conv1d ord x r ⟨w.off + ((n0 : Int) - 1) * s0, [n0, n2, n1], [-s0, s2, s1]⟩ m

/-- hpc/Convolve1D.hpp:114-124 `Convolve1D_back1()(r,x,w)` without the case of four axes. -/
def conv1dBack1Core [Zero α] [Add α] [Mul α] (r x w : SV) (m : Buf α) : Res (Buf α) := do
  Res.assrt (x.dims.length = r.dims.length)
  if r.dims.length = 1 then conv1d [] w x r m
  else do
    Res.assrt (w.dims.length = 3)
    if r.dims.length = 2 then do
      let X ← x.unsqueeze 1
      let R ← r.unsqueeze 2
      conv1d [] w X R m
    else if r.dims.length = 3 then do
      let X ← x.transpAB 1 2
      conv1d [] w X r m
    else .ok m

/-- hpc/Convolve1D.hpp:114-130 `Convolve1D_back1()(r,x,w)`.  (`conv1d` is called on three axes, never five, so it needs no
order.)  `ord` is the order of the rounds of line 127; each is taken to run undisturbed. -/
def conv1dBack1 [Zero α] [Add α] [Mul α] (ord : List Nat) (r x w : SV) (m : Buf α) : Res (Buf α) :=
  if r.dims.length = 4 then do
    Res.assrt (x.dims.length = r.dims.length)
    Res.assrt (w.dims.length = 3)
    Res.forM ord m fun m b => do
      let R ← r.slice 0 (b : Int)
      let X ← x.slice 0 (b : Int)
      conv1dBack1Core R X w m
  else conv1dBack1Core r x w m

/-- tensors/TensorView.hpp:144-155 `TensorView(dims,0,dev)`: zeroes, row-major strides; allocated at `q`. -/
def fresh (q : Nat) (dims : List Nat) : SV := ⟨q, dims, (rmStrides dims).map Int.ofNat⟩

/-- hpc/Convolve1D.hpp:138-139: the size of the result along the convolved axis. -/
def outSize (x w : Nat) (pad : Int) : Int := if pad = -1 then x else (x : Int) + 2 * pad - w + 1

/-- A size passed to a constructor; a negative one is outside the model (`need`). -/
def sizeOf (n : Int) : Res Nat := do
  Res.need (0 ≤ n)
  .ok n.toNat

/-- hpc/Convolve1D.hpp:134-165 `convolve1d(x,w,pad)`; the result is allocated at `q`. -/
def convolve1d [Zero α] [Add α] [Mul α] (x w : SV) (pad : Int) (q : Nat) (m : Buf α) : Res (Option SV × Buf α) := do
  let d := x.dims.length
  let x0 ← Res.get x.dims 0
  let w0 ← Res.get w.dims 0
  let I0 := outSize x0 w0 pad
  let make := fun (dims : List Nat) => do
    let m ← conv1d [] (fresh q dims) x w (allocZero m q (asize dims))
    (.ok (some (fresh q dims), m) : Res (Option SV × Buf α))
  if d = 1 then do
    let I0 ← sizeOf I0
    make [I0]
  else do
    Res.assrt (w.dims.length = 3)
    let aout ← Res.get w.dims (w.dims.length - 2)
    if d = 2 then do
      let I0 ← sizeOf I0
      make [I0, aout]
    else if d = 3 then do
      let I0 ← sizeOf I0
      let c ← Res.get x.dims 2
      make [I0, aout, c]
    else if d = 4 then do
      let I0 ← sizeOf I0
      let c ← Res.get x.dims 3
      make [I0, aout, c]
    else .ok (none, m)

/-! ## hpc/Convolve2D.hpp -/

/-- hpc/Convolve2D.hpp:70-84: two axes, no channels. -/
def conv2d2 [Zero α] [Add α] [Mul α] (r x w : SV) (wx wy : Nat) (m : Buf α) : Res (Buf α) := do
  Res.assrt (w.dims.length = 2)
  let r0 ← Res.get r.dims 0
  let x0 ← Res.get x.dims 0
  let r1 ← Res.get r.dims 1
  let x1 ← Res.get x.dims 1
  let pad0 := padOf r0 x0 wx
  let pad1 := padOf r1 x1 wy
  loop r0 m fun i0 m => loop r1 m fun i1 m => do
    let t ← loopI (max 0 (pad0 - i0)) (min wx (x0 - i0 + pad0)) (0 : α) fun j0 t =>
      loopI (max 0 (pad1 - i1)) (min wy (x1 - i1 + pad1)) t fun j1 t => do
        let a ← x.at2 (i0 + j0 - pad0) (i1 + j1 - pad1)
        let p ← rd m a
        let b ← w.at2 j0 j1
        let q ← rd m b
        .ok (t + p * q)
    let c ← r.at2 i0 i1
    wr m c t

/-- hpc/Convolve2D.hpp:86-102 (`prod` is `add_mvprod`) and 104-120 (`add_mprod`). -/
def conv2d3 (prod : SV → SV → SV → Buf α → Res (Buf α)) (r x w : SV) (wx wy : Nat) (m : Buf α) : Res (Buf α) := do
  Res.assrt (w.dims.length = 4)
  let r0 ← Res.get r.dims 0
  let x0 ← Res.get x.dims 0
  let r1 ← Res.get r.dims 1
  let x1 ← Res.get x.dims 1
  let pad0 := padOf r0 x0 wx
  let pad1 := padOf r1 x1 wy
  loop r0 m fun i0 m => loop r1 m fun i1 m => do
    let R ← r.slice 0 i0
    let R ← R.slice 0 i1
    loopI (max 0 (pad0 - i0)) (min wx (x0 - i0 + pad0)) m fun j0 m =>
      loopI (max 0 (pad1 - i1)) (min wy (x1 - i1 + pad1)) m fun j1 m => do
        let W ← w.slice 0 j0
        let W ← W.slice 0 j1
        let X ← x.slice 0 (i0 + j0 - pad0)
        let X ← X.slice 0 (i1 + j1 - pad1)
        prod R W X m

/-- hpc/Convolve2D.hpp:62-120 `Convolve2D()(r,x,w)` without the case of five axes. -/
def conv2dCore [Zero α] [Add α] [Mul α] (r x w : SV) (m : Buf α) : Res (Buf α) := do
  Res.assrt (x.dims.length = r.dims.length)
  let wx ← Res.get w.dims 0
  let wy ← Res.get w.dims 1
  match r.dims.length with
  | 2 => conv2d2 r x w wx wy m
  | 3 => conv2d3 SV.addMvprod r x w wx wy m
  | 4 => conv2d3 SV.addMprod r x w wx wy m
  | _ => .ok m

/-- hpc/Convolve2D.hpp:62-129 `Convolve2D()(r,x,w)`; the slices of line 126 have four axes.  `ord` is the order in which
`MultiLoop` runs the rounds. -/
def conv2d [Zero α] [Add α] [Mul α] (ord : List Nat) (r x w : SV) (m : Buf α) : Res (Buf α) :=
  if r.dims.length = 5 then do
    Res.assrt (x.dims.length = r.dims.length)
    let _ ← Res.get w.dims 0
    let _ ← Res.get w.dims 1
    let r0 ← Res.get r.dims 0
    let x0 ← Res.get x.dims 0
    Res.assrt (r0 = x0)
    Res.forM ord m fun m b => do
      let R ← r.slice 0 (b : Int)
      let X ← x.slice 0 (b : Int)
      conv2dCore R X w m
  else conv2dCore r x w m

/-- hpc/Convolve2D.hpp:138-153 `Convolve2D_back0()(r,x,w)`. -/
def conv2dBack0 [Zero α] [Add α] [Mul α] (ord : List Nat) (r x w : SV) (m : Buf α) : Res (Buf α) := do
  if w.dims.length = 2 then do
    let n0 ← Res.get w.dims 0
    let n1 ← Res.get w.dims 1
    let s0 ← Res.get w.strides 0
    let s1 ← Res.get w.strides 1
    conv2d ord x r ⟨w.off + ((n0 : Int) - 1) * s0 + ((n1 : Int) - 1) * s1, [n0, n1], [-s0, -s1]⟩ m
  else do
    Res.assrt (w.dims.length = 4)
    let n0 ← Res.get w.dims 0
    let n1 ← Res.get w.dims 1
    let n2 ← Res.get w.dims 2
    let n3 ← Res.get w.dims 3
    let s0 ← Res.get w.strides 0
    let s1 ← Res.get w.strides 1
    let s2 ← Res.get w.strides 2
    let s3 ← Res.get w.strides 3
    conv2d ord x r ⟨w.off + ((n0 : Int) - 1) * s0 + ((n1 : Int) - 1) * s1, [n0, n1, n3, n2], [-s0, -s1, s3, s2]⟩ m

/-- hpc/Convolve2D.hpp:160-170 `Convolve2D_back1()(r,x,w)` without the case of five axes. -/
def conv2dBack1Core [Zero α] [Add α] [Mul α] (r x w : SV) (m : Buf α) : Res (Buf α) := do
  Res.assrt (x.dims.length = r.dims.length)
  if r.dims.length = 2 then conv2d [] w x r m
  else do
    Res.assrt (w.dims.length = 4)
    if r.dims.length = 3 then do
      let X ← x.unsqueeze 2
      let R ← r.unsqueeze 3
      conv2d [] w X R m
    else if r.dims.length = 4 then do
      let X ← x.transpAB 2 3
      conv2d [] w X r m
    else .ok m

/-- hpc/Convolve2D.hpp:160-176 `Convolve2D_back1()(r,x,w)`.  `ord` is the order of the rounds of line 173; each is taken to
run undisturbed. -/
def conv2dBack1 [Zero α] [Add α] [Mul α] (ord : List Nat) (r x w : SV) (m : Buf α) : Res (Buf α) :=
  if r.dims.length = 5 then do
    Res.assrt (x.dims.length = r.dims.length)
    Res.assrt (w.dims.length = 4)
    Res.forM ord m fun m b => do
      let R ← r.slice 0 (b : Int)
      let X ← x.slice 0 (b : Int)
      conv2dBack1Core R X w m
  else conv2dBack1Core r x w m

/-- hpc/Convolve2D.hpp:26-59 (= 180-183) `convolve2d(x,w,pad0,pad1)`; the result is allocated at `q`. -/
def convolve2d [Zero α] [Add α] [Mul α] (x w : SV) (pad0 pad1 : Int) (q : Nat) (m : Buf α) :
    Res (Option SV × Buf α) := do
  let d := x.dims.length
  let x0 ← Res.get x.dims 0
  let w0 ← Res.get w.dims 0
  let x1 ← Res.get x.dims 1
  let w1 ← Res.get w.dims 1
  let make := fun (dims : List Nat) => do
    let m ← conv2d [] (fresh q dims) x w (allocZero m q (asize dims))
    (.ok (some (fresh q dims), m) : Res (Option SV × Buf α))
  if d = 2 then do
    let I0 ← sizeOf (outSize x0 w0 pad0)
    let I1 ← sizeOf (outSize x1 w1 pad1)
    make [I0, I1]
  else do
    Res.assrt (w.dims.length = 4)
    let aout ← Res.get w.dims (w.dims.length - 2)
    if d = 3 then do
      let I0 ← sizeOf (outSize x0 w0 pad0)
      let I1 ← sizeOf (outSize x1 w1 pad1)
      make [I0, I1, aout]
    else if d = 4 then do
      let I0 ← sizeOf (outSize x0 w0 pad0)
      let I1 ← sizeOf (outSize x1 w1 pad1)
      let c ← Res.get x.dims 3
      make [I0, I1, aout, c]
    else if d = 5 then do
      let I0 ← sizeOf (outSize x0 w0 pad0)
      let c ← Res.get x.dims 4
      make [I0, I0, aout, c]
    else .ok (none, m)

end Conv
end Cnine
