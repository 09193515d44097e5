import Verif.Model.Conv
import Verif.Model.Gather
import Verif.Model.View

/-!
# Model of slice gathering

hpc/GatherSlices.hpp on the host, with `co_scrunch_except` of tensors/TensorView_reshapes.inc.

All tensors live in one memory; the numbers in the gather map are `int` and unchecked, so addresses are integers.  The axis
numbers are natural: the default `-1` (lines 42,51,64,174) stands for the same axis as the other one.
-/

namespace Cnine

open Conv

variable {α : Type}

/-- The view with integer addresses. -/
def View.sv (v : View) : SV := ⟨v.off, v.dims, v.strides.map Int.ofNat⟩

namespace Slices

/-- tensors/TensorView_reshapes.inc:142-190 `co_scrunch_except(y,xspecial,yspecial)`.  After the two special axes have been
removed (149-152), lines 154-170 are the loop of `co_scrunch` (`View.coScrunch`); lines 172-187 put the special axes in front and the others behind them in reverse order. -/
def coScrunchExcept (x y : View) (xsp ysp : Nat) : Res (View × View) := do
  let n : Int := (x.dims.length : Int) - 1
  Res.assrt (decide ((y.dims.length : Int) - 1 = n))
  Res.assrt (decide ((xsp : Int) < n))
  Res.assrt (decide ((ysp : Int) < n))
  let xd ← gvRemove x.dims xsp
  let yd ← gvRemove y.dims ysp
  Res.assrt (decide (yd = xd))
  let xs ← gvRemove x.strides xsp
  let ys ← gvRemove y.strides ysp
  let (x', y') ← View.coScrunch ⟨x.off, xd, xs⟩ ⟨y.off, yd, ys⟩
  let dx ← Res.get x.dims xsp
  let dy ← Res.get y.dims ysp
  let sx ← Res.get x.strides xsp
  let sy ← Res.get y.strides ysp
  .ok (⟨x.off, dx :: x'.dims, sx :: x'.strides⟩, ⟨y.off, dy :: y'.dims, sy :: y'.strides⟩)

/-- `dest[i]+=beg[i]` at two addresses. -/
def bump [Add α] (dst src : Int) (m : Buf α) : Res (Buf α) := do
  let v ← rd m src
  inc m dst v

/-- include/Cnine_base_helpers.hpp:43-48 `stdadd(beg,end,dest)` with `end-beg = n`. -/
def stdadd [Add α] (beg : Int) (n : Nat) (dst : Int) (m : Buf α) : Res (Buf α) :=
  loop n m fun i m => bump (dst + i) (beg + i) m

/-- hpc/GatherSlices.hpp:78-97: one axis besides the gathered one; `es` are the calls of the lambda, (target, source). -/
def fast1 [Add α] (es : List (Int × Int)) (ro xo rs0 rs1 xs0 xs1 : Int) (d1 : Nat) (m : Buf α) : Res (Buf α) :=
  if rs1 = 1 ∧ xs1 = 1 then
    Res.forM es m fun m e => stdadd (xo + e.2 * xs0) d1 (ro + e.1 * rs0) m
  else
    Res.forM es m fun m e => loop d1 m fun s m => bump (ro + (e.2 * rs0 + s * rs1)) (xo + (e.1 * xs0 + e.2 * rs1)) m

/-- hpc/GatherSlices.hpp:99-123: two axes besides the gathered one. -/
def fast2 [Add α] (es : List (Int × Int)) (ro xo rs0 rs1 rs2 xs0 xs1 xs2 : Int) (d1 d2 : Nat) (m : Buf α) : Res (Buf α) :=
  if rs2 = 1 ∧ xs2 = 1 then
    Res.forM es m fun m e => loop d1 m fun i1 m => stdadd (xo + e.2 * xs0 + i1 * xs1) d2 (ro + e.1 * rs0 + i1 * rs1) m
  else
    Res.forM es m fun m e => loop d1 m fun i1 m => loop d2 m fun i2 m =>
      bump (ro + (e.2 * rs0 + i1 * rs1 + i2 * rs2)) (xo + (e.1 * xs0 + i1 * xs1 + i2 * xs2)) m

/-- hpc/GatherSlices.hpp:125-155: three axes besides the gathered one; line 138 takes `d3` from axis 2. -/
def fast3 [Add α] (es : List (Int × Int)) (ro xo rs0 rs1 rs2 rs3 xs0 xs1 xs2 xs3 : Int) (d1 d2 : Nat) (m : Buf α) :
    Res (Buf α) :=
  let d3 := d2
  if rs3 = 1 ∧ xs3 = 1 then
    Res.forM es m fun m e => loop d1 m fun i1 m => loop d2 m fun i2 m =>
      stdadd (xo + e.2 * xs0 + i1 * xs1 + i2 * xs2) d3 (ro + e.1 * rs0 + i1 * rs1 + i2 * rs2) m
  else
    Res.forM es m fun m e => loop d1 m fun i1 m => loop d2 m fun i2 m => loop d3 m fun i3 m =>
      bump (ro + (e.2 * rs0 + i1 * rs1 + i2 * rs2 + i3 * rs3)) (xo + (e.1 * xs0 + i1 * xs1 + i2 * xs2 + i3 * xs3)) m

/-- hpc/GatherSlices.hpp:63-170 `operator()(R,X,gmap,in_dim,out_dim)`.  With more than three axes left `CNINE_UNIMPL` prints a
message and nothing is added. -/
def gather [Add α] (R X : View) (g : GMap) (inDim outDim : Nat) (m : Buf α) : Res (Buf α) := do
  let (R, X) ← coScrunchExcept R X outDim inDim
  let r0 ← Res.get R.dims 0
  let x0 ← Res.get X.dims 0
  Res.assrt (decide ((r0 : Int) = g.nOut))
  Res.assrt (decide ((x0 : Int) = g.nIn))
  let es ← g.forEach
  match R.strides, X.strides, X.dims with
  | [rs0, rs1], [xs0, xs1], [_, d1] => fast1 es R.off X.off rs0 rs1 xs0 xs1 d1 m
  | [rs0, rs1, rs2], [xs0, xs1, xs2], [_, d1, d2] => fast2 es R.off X.off rs0 rs1 rs2 xs0 xs1 xs2 d1 d2 m
  | [rs0, rs1, rs2, rs3], [xs0, xs1, xs2, xs3], [_, d1, d2, _] =>
    fast3 es R.off X.off rs0 rs1 rs2 rs3 xs0 xs1 xs2 xs3 d1 d2 m
  | _, _, _ => .ok m

/-- hpc/GatherSlices.hpp:182-191 (= 196-205): which axis goes to place `k` when axis `a` is moved to the front. -/
def frontAxis (a k : Nat) : Nat := if k = 0 then a else if k ≤ a then k - 1 else k

/-- The entries of `l` at the given places. -/
def getAll (l : List Nat) : List Nat → Res (List Nat)
  | [] => .ok []
  | k :: ks => do
    let a ← Res.get l k
    let r ← getAll l ks
    .ok (a :: r)

/-- hpc/GatherSlices.hpp:180-192 (= 194-206): the view with axis `a` moved to the front. -/
def toFront (v : View) (a : Nat) : Res View := do
  Res.need (a < v.dims.length)
  let ds ← getAll v.dims ((List.range v.dims.length).map (frontAxis a))
  let ss ← getAll v.strides ((List.range v.dims.length).map (frontAxis a))
  .ok ⟨v.off, ds, ss⟩

/-- hpc/GatherSlices.hpp:208-232: the loops over axes 1, 2, 3 of `X` (sizes `ds`) around `R.inc(…,X(…))`. -/
def nest [Add α] : List Nat → List Int → List Int → Int → Int → Buf α → Res (Buf α)
  | d :: ds, r :: rs, x :: xs, ra, xa, m => loop d m fun i m => nest ds rs xs (ra + i * r) (xa + i * x) m
  | [], [], [], ra, xa, m => bump ra xa m
  | _, _, _, _, _, _ => .ub

/-- hpc/GatherSlices.hpp:173-234 `naive(R,X,gmap,in_dim,out_dim)`. -/
def naive [Add α] (R X : View) (g : GMap) (inDim outDim : Nat) (m : Buf α) : Res (Buf α) := do
  Res.assrt (decide (X.dims.length = R.dims.length))
  Res.assrt (decide (R.dims.length < 5))
  let X ← toFront X inDim
  let R ← toFront R outDim
  let es ← g.forEach
  match R.strides, X.strides, X.dims with
  | r0 :: rs, x0 :: xs, _ :: ds =>
    Res.forM es m fun m e =>
      nest ds (rs.map Int.ofNat) (xs.map Int.ofNat) (R.off + e.1 * r0) (X.off + e.2 * x0) m
  | _, _, _ => .ub

/-- hpc/GatherSlices.hpp:41-47 (`fast`) and 50-56: the result is made by the call, at `q`. -/
def make [Zero α] [Add α] (fast : Bool) (X : View) (g : GMap) (inDim outDim : Nat) (q : Nat) (m : Buf α) :
    Res (View × Buf α) := do
  let x ← Res.get X.dims inDim
  Res.assrt (decide (g.nIn = x))
  let ds ← gvRemove X.dims inDim
  Res.need (0 ≤ g.nOut)
  let ds ← gvInsert ds outDim g.nOut.toNat
  let R : View := ⟨q, ds, rmStrides ds⟩
  let m := allocZero m q (asize ds)
  let m ← if fast then gather R X g inDim outDim m else naive R X g inDim outDim m
  .ok (R, m)

end Slices

end Cnine
