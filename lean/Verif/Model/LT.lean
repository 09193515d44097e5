import Verif.Model.Ltensor
import Verif.Model.Construct

/-!
# Model of labelled tensors

tensors/Ltensor.hpp: a view together with dimension labels.  Batch sizes are natural numbers, `dev` is 0.  The methods
`split(d,a)` (757-764), `transp(a,b)` (784-788), `row`, `rows` (677-687) and `broadcast(d,n)` (740-742) repeat the code of
`TensorView` and are `View.split`, `View.transpAB`, `View.row`, `View.rows`, `View.insertDim`.
-/

namespace Cnine

variable {α : Type}

/-- tensors/Ltensor.hpp:43-76: the view and its labels. -/
structure LT where
  v : View
  lab : Labels
  deriving Repr, DecidableEq

/-- tensors/Ltensor.hpp:138-165: the named arguments of a constructor. -/
inductive LArg where
  | batch (b : Nat)
  | grid (g : List Nat)
  | dims (c : List Nat)
  | fill (f : Int)
  | dev (d : Int)

/-- tensors/Ltensor.hpp:129-135 `vparams`. -/
structure VParams where
  b : Nat := 0
  gdims : List Nat := []
  cdims : List Nat := []
  fcode : Int := 0
  dev : Int := 0
  deriving Repr, DecidableEq

namespace LT

/-- tensors/Ltensor.hpp:102-104 `Ltensor(b,gdims,cdims,…)` (and 106-109 `reset`), include/Gdims.hpp:124-129: the batch is always
an axis, the label says `b≠0`. -/
def make (q b : Nat) (gd cd : List Nat) : LT := ⟨View.new q (b :: gd ++ cd), ⟨decide (b ≠ 0), gd.length⟩⟩

/-- tensors/Ltensor.hpp:145-165 one step of `unroller`. -/
def unroll (v : VParams) : LArg → VParams
  | .batch b => { v with b := b }
  | .grid g => { v with gdims := g }
  | .dims c => { v with cdims := c }
  | .fill f => { v with fcode := f }
  | .dev d => { v with dev := d }

/-- tensors/Ltensor.hpp:137-143 the constructor from named arguments. -/
def named (q : Nat) (cd : List Nat) (args : List LArg) : LT :=
  let v := args.foldl unroll { cdims := cd }
  make q v.b v.gdims v.cdims

/-- tensors/Ltensor.hpp:410-418 `getb()`, `nbatch()`. -/
def getb (x : LT) : Res Nat := if x.lab.batched then Res.get x.v.dims 0 else .ok 1

/-- tensors/Ltensor.hpp:448-450, 509-511, 531-533 `gdims()`, `cdims()`, `bcdims()`. -/
def gdims (x : LT) : Res (List Nat) := x.lab.gpart x.v.dims
@[inherit_doc gdims] def cdims (x : LT) : Res (List Nat) := x.lab.cpart x.v.dims
@[inherit_doc gdims] def bcdims (x : LT) : Res (List Nat) := x.lab.bcpart x.v.dims

/-- tensors/Ltensor.hpp:420-424 `batch(i)`: the position is not checked. -/
def batch (x : LT) (i : Nat) : Res LT := do
  Res.assrt x.lab.batched
  let s ← Res.get x.v.strides 0
  let ds ← gvChunk x.v.dims 1 (-1)
  let ss ← gvChunk x.v.strides 1 (-1)
  .ok ⟨⟨x.v.off + s * i, ds, ss⟩, x.lab.setBatched false⟩

/-- tensors/Ltensor.hpp:426-430 `for_each_batch(lambda)`: the calls made. -/
def eachBatch (x : LT) : Res (List (Nat × LT)) := do
  let B ← x.getb
  (List.range B).foldr (fun b acc => do let y ← x.batch b; let r ← acc; .ok ((b, y) :: r)) (.ok [])

/-- tensors/Ltensor.hpp:470-477 `cell(ix)`; the branch for a batch is unreachable. -/
def cell (x : LT) (ix : List Nat) : Res LT := do
  Res.assrt (!x.lab.batched)
  Res.assrt ((ix.length : Int) = x.lab.narray)
  let gs ← x.lab.gpart x.v.strides
  let o ← offs gs ix
  let cd ← x.cdims
  let cs ← x.lab.cpart x.v.strides
  .ok ⟨⟨x.v.off + o, cd, cs⟩, x.lab.setNgrid 0⟩

/-- tensors/Ltensor.hpp:479-484 `cell(b,ix)`. -/
def cellAt (x : LT) (b : Nat) (ix : List Nat) : Res LT := do
  Res.assrt x.lab.batched
  let nb ← x.getb
  Res.assrt (b < nb)
  Res.assrt ((ix.length : Int) = x.lab.narray)
  let s ← Res.get x.v.strides 0
  let gs ← x.lab.gpart x.v.strides
  let o ← offs gs ix
  let cd ← x.cdims
  let cs ← x.lab.cpart x.v.strides
  .ok ⟨⟨x.v.off + s * b + o, cd, cs⟩, (x.lab.setBatched false).setNgrid 0⟩

/-- tensors/Ltensor.hpp:539-542 `batched_cell(ix)`. -/
def batchedCell (x : LT) (ix : List Nat) : Res LT := do
  Res.assrt ((ix.length : Int) = x.lab.narray)
  let gs ← x.lab.gpart x.v.strides
  let o ← offs gs ix
  let cd ← x.bcdims
  let cs ← x.lab.bcpart x.v.strides
  .ok ⟨⟨x.v.off + o, cd, cs⟩, x.lab.setNgrid 0⟩

/-- tensors/Ltensor.hpp:486-491 `for_each_cell(lambda)` without batch: the calls made (include/Gdims.hpp:349-355 makes none for an
empty grid shape). -/
def eachCell (x : LT) : Res (List (List Nat × LT)) := do
  Res.assrt (!x.lab.batched)
  let g ← x.gdims
  let l ← foreachIndex g
  l.foldr (fun ix acc => do let y ← x.cell ix; let r ← acc; .ok ((ix, y) :: r)) (.ok [])

/-- tensors/Ltensor.hpp:493-499 `for_each_cell(lambda)` with batch: the calls made. -/
def eachBCell (x : LT) : Res (List (Nat × List Nat × LT)) := do
  Res.assrt x.lab.batched
  let nb ← x.getb
  let g ← x.gdims
  (List.range nb).foldr (fun b acc => do
    let l ← foreachIndex g
    let c ← l.foldr (fun ix acc => do let y ← x.cellAt b ix; let r ← acc; .ok ((b, ix, y) :: r)) (.ok [])
    let r ← acc
    .ok (c ++ r)) (.ok [])

/-- tensors/Ltensor.hpp:444-446 `nbgdims()`. -/
def nbg (x : LT) : Int := x.lab.nb + x.lab.narray

/-- tensors/Ltensor.hpp:456-459 `total_bgdims()`: `dims[0]*strides[0]/strides[nbgdims()-1]`. -/
def total (x : LT) : Res Nat :=
  if x.nbg = 0 then .ok 1
  else do
    let d ← Res.get x.v.dims 0
    let s ← Res.get x.v.strides 0
    let t ← Res.get x.v.strides (x.nbg - 1).toNat
    Res.need (t ≠ 0)
    .ok (d * s / t)

/-- tensors/Ltensor.hpp:465-468 `min_gstride()`. -/
def minG (x : LT) : Res Nat := if x.nbg = 0 then .ok 0 else Res.get x.v.strides (x.nbg - 1).toNat

/-- tensors/Ltensor.hpp:505-507 `ncdims()`. -/
def ncdims (x : LT) : Int := x.v.dims.length - x.lab.narray - x.lab.nb

/-- tensors/Ltensor.hpp:513-516 `cdim(i)`. -/
def cdim (x : LT) (i : Nat) : Res Nat := do
  Res.assrt (i + x.nbg < x.v.dims.length)
  Res.get x.v.dims (x.nbg + i).toNat

/-- tensors/Ltensor.hpp:522-525 `cstride(i)`. -/
def cstride (x : LT) (i : Nat) : Res Nat := do
  Res.assrt (i + x.nbg < x.v.dims.length)
  Res.get x.v.strides (x.nbg + i).toNat

/-- tensors/Ltensor.hpp:948-952 `batch_grid_fused_view2_of(x)` for `float`. -/
def fused2 (x : LT) : Res RV2 := do
  Res.assrt (x.ncdims = 1)
  let t ← x.total
  let n ← x.cdim 0
  let g ← x.minG
  let s ← x.cstride 0
  .ok ⟨x.v.off, t, n, g, s⟩

/-- tensors/Ltensor.hpp:968-972 `batch_grid_fused_view3_of(x)` for `float`; the third-order view is written as a `View`. -/
def fused3 (x : LT) : Res View := do
  Res.assrt (x.ncdims = 2)
  let t ← x.total
  let n ← x.cdim 0
  let k ← x.cdim 1
  let g ← x.minG
  let s ← x.cstride 0
  let u ← x.cstride 1
  .ok ⟨x.v.off, [t, n, k], [g, s, u]⟩

/-- tensors/Ltensor.hpp:1006-1015 `mult(x,y)` for `float`: every cell of `x` times the matrix `y`. -/
def mult [Zero α] [Add α] [Mul α] (q : Nat) (x y : LT) (m : Buf α) : Res (LT × Buf α) := do
  let n ← (match y.v.dims.getLast? with | some n => .ok n | none => .ub : Res Nat)
  Res.need (x.v.dims ≠ [])
  let ds := x.v.dims.dropLast ++ [n]
  let r : LT := ⟨View.new q ds, x.lab⟩
  let m := allocZero m q (asize ds)
  let view (z : LT) : Res RV2 := do
    let t ← z.total
    let a ← z.cdim 0
    let b ← z.cdim 1
    let s ← z.cstride 0
    let u ← z.cstride 1
    .ok ⟨z.v.off, t * a, b, s, u⟩
  let rv ← view r
  let xv ← view x
  let a ← y.cdim 0
  let b ← y.cdim 1
  let s ← y.cstride 0
  let u ← y.cstride 1
  let m ← rv.addMatmulAA xv ⟨y.v.off, a, b, s, u⟩ m
  .ok (r, m)

end LT

namespace View

/-- tensors/Ltensor.hpp:689-694 `col(i)` of a tensor of any rank. -/
def colL (v : View) (i : Nat) : Res View := do
  let k := v.dims.length
  Res.assrt (0 < k)
  let n ← Res.get v.dims (k - 1)
  Res.assrt (i < n)
  Res.need (0 < v.strides.length)
  let s ← Res.get v.strides (v.strides.length - 1)
  let ds ← gvChunk v.dims 0 (k - 1 : Nat)
  let ss ← gvChunk v.strides 0 (k - 1 : Nat)
  .ok ⟨v.off + s * i, ds, ss⟩

/-- tensors/Ltensor.hpp:696-700 `cols(i,n)` of a tensor of any rank. -/
def colsL (v : View) (i n : Nat) : Res View := do
  let k := v.dims.length
  Res.assrt (0 < k)
  let d ← Res.get v.dims (k - 1)
  Res.assrt (i + n ≤ d)
  Res.need (0 < v.strides.length)
  let s ← Res.get v.strides (v.strides.length - 1)
  let ds ← gvSet v.dims (k - 1) n
  .ok ⟨v.off + s * i, ds, v.strides⟩

/-- tensors/Ltensor.hpp:750-755 `unsqueeze(d)`. -/
def unsqueezeL (v : View) (d : Nat) : Res View := do
  Res.assrt (d < v.dims.length)
  let ds ← gvInsert v.dims d 1
  let s ← Res.get v.strides d
  let ss ← gvInsert v.strides d s
  .ok ⟨v.off, ds, ss⟩

/-- tensors/Ltensor.hpp:726-738 `diag(ix)`. -/
def diagL (v : View) (ix : List Nat) : Res View :=
  match ix with
  | [] => .throw
  | a :: ix => do
    Res.assrt (a < v.dims.length)
    let n ← Res.get v.dims a
    let s ← Res.get v.strides a
    let s ← Res.forM ix s fun s i => do
      Res.assrt (i < v.dims.length)
      let d ← Res.get v.dims i
      Res.assrt (d = n)
      let t ← Res.get v.strides i
      .ok (s + t)
    let ds ← gvExcept v.dims ix
    let ss ← gvExcept v.strides ix
    let ss ← gvSet ss a s
    .ok ⟨v.off, ds, ss⟩

/-- tensors/Ltensor.hpp:766-778 `fuse(ix)`: the smallest stride is computed and not used. -/
def fuseL (v : View) (ix : List Nat) : Res View :=
  match ix with
  | [] => .throw
  | a :: ix => do
    Res.assrt (a < v.dims.length)
    let n ← Res.get v.dims a
    let s ← Res.get v.strides a
    let p ← Res.forM ix (n, s) fun p i => do
      Res.assrt (i < v.dims.length)
      let d ← Res.get v.dims i
      let t ← Res.get v.strides i
      .ok (p.1 * d, if t < p.2 then t else p.2)
    let ds ← gvExcept v.dims ix
    let ds ← gvSet ds a p.1
    let ss ← gvExcept v.strides ix
    .ok ⟨v.off, ds, ss⟩

end View
end Cnine
