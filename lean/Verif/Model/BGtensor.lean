import Verif.Model.Rows
import Verif.Model.Mat
import Verif.Model.Threads

/-!
# Model of BGtensor: a tensor split in batch axis, grid axes and cell axes

Loops over batches are modelled as sequential (`nthreads <= 1`, or a target without batch): with more threads and a grid
the shared cell views are raced for, see `C55_race_fails`.  A new tensor is a zeroed row-major block at an address given by
the caller of the model.  Only real element types; `dev` is 0.  (For `double` the function `view2_of`,
tensors/TensorView.hpp:785-786, reinterprets the memory as `float`; the matrix products here are for `float`.)
-/

namespace Cnine

variable {α : Type _}

/-- tensors/BGtensor.hpp:28-45: a tensor and the number of its grid axes. -/
structure BG where
  v : View
  ng : Nat
  deriving Repr, DecidableEq

namespace BG

/-- tensors/BGtensor.hpp:52-55 constructor from batch, grid and cell dims. -/
def make (q b : Nat) (gd cd : List Nat) : BG := ⟨⟨q, b :: gd ++ cd, rmStrides (b :: gd ++ cd)⟩, gd.length⟩

/-- tensors/BGtensor.hpp:84-90 constructor from parts. -/
def ofParts (q b : Nat) (gd cd : List Nat) (bs : Nat) (gs cs : List Nat) : Res BG := do
  Res.assrt (gd.length = gs.length)
  Res.assrt (cd.length = cs.length)
  .ok ⟨⟨q, b :: gd ++ cd, bs :: gs ++ cs⟩, gd.length⟩

/-- tensors/BGtensor.hpp:92-95 `BGtensor(ng,x)`. -/
def ofTensor (ng : Nat) (x : View) : Res BG := do
  Res.assrt (ng + 1 ≤ x.dims.length)
  .ok ⟨x, ng⟩

/-- tensors/BGtensor.hpp:97-103 `BGtensor(x,batched,ng)`: no check of `ng`. -/
def ofView (x : View) (batched : Bool) (ng : Nat) : Res BG :=
  if batched then .ok ⟨x, ng⟩
  else do
    let ds ← gvInsert x.dims 0 1
    let ss ← gvInsert x.strides 0 0
    .ok ⟨⟨x.off, ds, ss⟩, ng⟩

/-- tensors/BGtensor.hpp:168-170 `vectr(x)`. -/
def vectr (x : View) : Res BG := ofView x (decide (1 < x.dims.length)) (x.dims.length - 2)

/-- tensors/BGtensor.hpp:199-200 `grid(x)`. -/
def grid (x : View) : Res BG := ofView x false x.dims.length

/-- tensors/BGtensor.hpp:231-233 `getb()`. -/
def getb (x : BG) : Res Nat := Res.get x.v.dims 0

/-- tensors/BGtensor.hpp:235-237 `bstride()`. -/
def bstride (x : BG) : Res Nat := Res.get x.v.strides 0

/-- tensors/BGtensor.hpp:267-273 `gdims()`, `get_gdims()`. -/
def gdims (x : BG) : Res (List Nat) := gvChunk x.v.dims 1 x.ng

/-- tensors/BGtensor.hpp:275-281 `gstrides()`. -/
def gstrides (x : BG) : Res (List Nat) := gvChunk x.v.strides 1 x.ng

/-- tensors/BGtensor.hpp:287-289 `has_cells()`. -/
def hasCells (x : BG) : Bool := x.ng + 1 < x.v.dims.length

/-- tensors/BGtensor.hpp:295-303 `cdims()`, `get_cdims()`. -/
def cdims (x : BG) : Res (List Nat) := if x.hasCells then gvChunk x.v.dims (1 + x.ng : Nat) (-1) else .ok []

/-- tensors/BGtensor.hpp:305-308 `cstrides()`. -/
def cstrides (x : BG) : Res (List Nat) := if x.hasCells then gvChunk x.v.strides (1 + x.ng : Nat) (-1) else .ok []

/-- tensors/BGtensor.hpp:310-312 `cdim(i)`. -/
def cdim (x : BG) (i : Nat) : Res Nat := Res.get x.v.dims (1 + x.ng + i)

/-- tensors/BGtensor.hpp:239-241 `batch(b)`. -/
def batch (x : BG) (b : Nat) : Res BG := do
  let s ← x.bstride
  let gd ← x.gdims
  let cd ← x.cdims
  let gs ← x.gstrides
  let cs ← x.cstrides
  ofParts (x.v.off + b * s) 1 gd cd 0 gs cs

/-- tensors/BGtensor.hpp:314-316 `cell(ix)`. -/
def cellOf (x : BG) (ix : List Nat) : Res BG := do
  let gs ← x.gstrides
  let o ← offs gs ix
  let b ← x.getb
  let cd ← x.cdims
  let s ← x.bstride
  let cs ← x.cstrides
  ofParts (x.v.off + o) b [] cd s [] cs

/-- tensors/BGtensor.hpp:318-320 `cell(b,ix)`. -/
def cellAt (x : BG) (b : Nat) (ix : List Nat) : Res BG := do
  let s ← x.bstride
  let gs ← x.gstrides
  let o ← offs gs ix
  let cd ← x.cdims
  let cs ← x.cstrides
  ofParts (x.v.off + b * s + o) 1 [] cd 0 [] cs

/-- tensors/BGtensor.hpp:322-328 `transp()`: `ncdims()` is `ndims()-ng-1` (291-293). -/
def transp (x : BG) : Res BG := do
  Res.assrt (x.v.dims.length = x.ng + 1 + 2)
  .ok ⟨⟨x.v.off, View.swapLast2 x.v.dims, View.swapLast2 x.v.strides⟩, x.ng⟩

end BG

/-! ## tensors/BGtensor_reconcilers.hpp -/

/-- tensors/BGtensor_reconcilers.hpp:26-36 `dominant_batch(x,y)`. -/
def domBatch2 (xb yb : Nat) : Res Nat :=
  if xb = yb then .ok xb else if xb = 1 then .ok yb else if yb = 1 then .ok xb else .throw

/-- `(int)(b>1)` -/
def gt1 (b : Nat) : Nat := if 1 < b then 1 else 0

/-- tensors/BGtensor_reconcilers.hpp:39-65 `dominant_batch(x,y,z)`. -/
def domBatch3 (xb yb zb : Nat) : Res Nat := do
  Res.assrt (0 < xb && 0 < yb && 0 < zb)
  let nb := gt1 xb + gt1 yb + gt1 zb
  if nb = 0 then .ok 1
  else if nb = 1 then .ok (gt1 xb * xb + gt1 yb * yb + gt1 zb * zb)
  else if nb = 2 ∧ xb = 1 then do
    Res.assrt (yb = zb)
    .ok yb
  else if nb = 2 ∧ yb = 1 then do
    Res.assrt (xb = zb)
    .ok xb
  else if nb = 2 ∧ zb = 1 then do
    Res.assrt (xb = yb)
    .ok xb
  else do
    Res.assrt (xb = yb && xb = zb)
    .ok xb

/-- tensors/BGtensor_reconcilers.hpp:68-87 `dominant_batch(x,y,z,w)`. -/
def domBatch4 (xb yb zb wb : Nat) : Res Nat := do
  Res.assrt (0 < xb && 0 < yb && 0 < zb && 0 < wb)
  let B := 1
  let B := if 1 < xb then xb else B
  let B := if 1 < yb then yb else B
  let B := if 1 < zb then zb else B
  let B := if 1 < wb then wb else B
  Res.assrt (xb = B || xb = 1)
  Res.assrt (yb = B || yb = 1)
  Res.assrt (zb = B || zb = 1)
  Res.assrt (wb = B || wb = 1)
  .ok B

/-- tensors/BGtensor_reconcilers.hpp:93-103 `dominant_gdims(x,y)`; `is_grid()` (255-257 of BGtensor.hpp) says that there are
grid axes.  160-169 `dominant_cdims(x,y)` is the same on cell dims. -/
def domG2 (xg yg : List Nat) : Res (List Nat) :=
  if xg = yg then .ok xg else if xg.length = 0 then .ok yg else if yg.length = 0 then .ok xg else .throw

/-- `(int)(g.size()>0)` -/
def some1 (g : List Nat) : Nat := if 0 < g.length then 1 else 0

/-- tensors/BGtensor_reconcilers.hpp:105-134 `dominant_gdims(x,y,z)`: line 109 takes the grid of `y` again for `z`. -/
def domG3 (xg yg _zg : List Nat) : Res (List Nat) := do
  let zg := yg
  let ng := some1 xg + some1 yg + some1 zg
  if ng = 0 then .ok []
  else if ng = 1 then
    if 0 < xg.length then .ok xg else if 0 < yg.length then .ok yg else .ok zg
  else if ng = 2 ∧ xg.length = 0 then do
    Res.assrt (yg = zg)
    .ok yg
  else if ng = 2 ∧ yg.length = 0 then do
    Res.assrt (xg = zg)
    .ok xg
  else if ng = 2 ∧ zg.length = 0 then do
    Res.assrt (xg = yg)
    .ok xg
  else do
    Res.assrt (xg = yg && xg = zg)
    .ok xg

/-- tensors/BGtensor_reconcilers.hpp:137-154 `dominant_gdims(x,y,z,w)`: line 141 takes the grid of `y` again for `z`. -/
def domG4 (xg yg _zg wg : List Nat) : Res (List Nat) := do
  let zg := yg
  let r : List Nat := []
  let r := if 0 < xg.length then xg else r
  let r := if 0 < yg.length then yg else r
  let r := if 0 < zg.length then zg else r
  let r := if 0 < wg.length then wg else r
  Res.assrt (xg.length = 0 || xg = r)
  Res.assrt (yg.length = 0 || yg = r)
  Res.assrt (zg.length = 0 || zg = r)
  Res.assrt (wg.length = 0 || wg = r)
  .ok r

namespace BG

/-! ## Loops over the cells -/

/-- tensors/functions/ForEachCellMulti.hpp:46-49 (= 92-95): what is kept of an operand with `n` grid axes in common. -/
def arg (x : BG) (n : Nat) : Res CellArg := do
  let gs ← if 0 < x.ng then x.gstrides else .ok (List.replicate n 0)
  let s ← x.bstride
  let b ← x.getb
  .ok ⟨x.v.off, if 1 < b then s else 0, gs⟩

/-- tensors/functions/ForEachCellMulti.hpp:41: `x.slice(0,(x.dim(0)>1)*b)`. -/
def sliceb (x : BG) (b : Nat) : Res View := do
  let n ← x.getb
  x.v.slice 0 (if 1 < n then b else 0)

/-- tensors/functions/ForEachCellMulti.hpp:70-120 `for_each_cell_multi(x,y,z,lambda)`, batches one after the other. -/
def forEach3 {σ : Type _} (x y z : BG) (lam : Nat → List Nat → View → View → View → σ → Res σ) (m : σ) : Res σ := do
  let xb ← x.getb
  let yb ← y.getb
  let zb ← z.getb
  let B ← domBatch3 xb yb zb
  let xg ← x.gdims
  let yg ← y.gdims
  let zg ← z.gdims
  let gd ← domG3 xg yg zg
  if gd.length = 0 then
    loop B m fun b m => do
      let xs ← x.sliceb b
      let ys ← y.sliceb b
      let zs ← z.sliceb b
      lam b [] xs ys zs m
  else do
    let xcd ← x.cdims
    let xcs ← x.cstrides
    let xa ← x.arg gd.length
    let ycd ← y.cdims
    let ycs ← y.cstrides
    let ya ← y.arg gd.length
    let zcd ← z.cdims
    let zcs ← z.cstrides
    let za ← z.arg gd.length
    loop B m fun b m => loop (asize gd) m fun i m => do
      let ix ← decode i gd
      let px ← xa.cell b ix
      let py ← ya.cell b ix
      let pz ← za.cell b ix
      lam b ix ⟨px, xcd, xcs⟩ ⟨py, ycd, ycs⟩ ⟨pz, zcd, zcs⟩ m

/-- tensors/functions/ForEachCellMultiScalar.hpp:70-133 `for_each_cell_multi_scalar(x,y,z,lambda)`: the third operand is passed
as one element; here its address. -/
def forEach3s {σ : Type _} (x y z : BG) (lam : Nat → List Nat → View → View → Nat → σ → Res σ) (m : σ) : Res σ := do
  let xb ← x.getb
  let yb ← y.getb
  let zb ← z.getb
  let B ← domBatch3 xb yb zb
  let xg ← x.gdims
  let yg ← y.gdims
  let zg ← z.gdims
  let gd ← domG3 xg yg zg
  if gd.length = 0 then
    loop B m fun b m => do
      let xs ← x.sliceb b
      let ys ← y.sliceb b
      let p ← z.v.at1 (if 1 < zb then b else 0)
      lam b [] xs ys p m
  else do
    let xcd ← x.cdims
    let xcs ← x.cstrides
    let xa ← x.arg gd.length
    let ycd ← y.cdims
    let ycs ← y.cstrides
    let ya ← y.arg gd.length
    let za ← z.arg gd.length
    loop B m fun b m => loop (asize gd) m fun i m => do
      let ix ← decode i gd
      let px ← xa.cell b ix
      let py ← ya.cell b ix
      let p ← za.cell b ix
      lam b ix ⟨px, xcd, xcs⟩ ⟨py, ycd, ycs⟩ p m

/-! ## tensors/BGtensor_products.hpp -/

/-- `r.add(x,c)` with the factor read from memory; `f` is what is made of the factor. -/
def scaleBody [Add α] [Mul α] (f : α → α) (r x : View) (p : Nat) (m : Buf α) : Res (Buf α) := do
  let c ← m.read p
  r.addScaled (fun a b => a + f c * b) x m

/-- tensors/BGtensor_products.hpp:34-49 `add_prod(x,y)`; `CNINE_UNIMPL()` only prints. -/
def addProd [Add α] [Mul α] (r x y : BG) (m : Buf α) : Res (Buf α) :=
  if x.hasCells.toNat + y.hasCells.toNat + r.hasCells.toNat < 2 then .ok m
  else if ¬ x.hasCells then forEach3s r y x (fun _ _ r y p m => scaleBody id r y p m) m
  else if ¬ y.hasCells then forEach3s r x y (fun _ _ r x p m => scaleBody id r x p m) m
  else forEach3 r x y (fun _ _ r x y m => View.addProd (fun a b c => a + b * c) r x y m) m

/-- tensors/BGtensor_products.hpp:27-31 `operator*`; the result is allocated at `q`. -/
def mul [Zero α] [Add α] [Mul α] (x y : BG) (q : Nat) (m : Buf α) : Res (BG × Buf α) := do
  let xb ← x.getb
  let yb ← y.getb
  let B ← domBatch2 xb yb
  let xg ← x.gdims
  let yg ← y.gdims
  let gd ← domG2 xg yg
  let xc ← x.cdims
  let yc ← y.cdims
  let cd ← domG2 xc yc
  let R := make q B gd cd
  let m ← addProd R x y (allocZero m q (asize (B :: gd ++ cd)))
  .ok (R, m)

/-- tensors/BGtensor_products.hpp:90-97 `add_div(x,y)`; `inv` is `1/c`. -/
def addDiv [Add α] [Mul α] (inv : α → α) (r x y : BG) (m : Buf α) : Res (Buf α) :=
  if y.hasCells then .throw
  else forEach3s r x y (fun _ _ r x p m => scaleBody inv r x p m) m

/-- tensors/BGtensor_products.hpp:84-88 `operator/`. -/
def div [Zero α] [Add α] [Mul α] (inv : α → α) (x y : BG) (q : Nat) (m : Buf α) : Res (BG × Buf α) := do
  let xb ← x.getb
  let yb ← y.getb
  let B ← domBatch2 xb yb
  let xg ← x.gdims
  let yg ← y.gdims
  let gd ← domG2 xg yg
  let xc ← x.cdims
  let yc ← y.cdims
  let cd ← domG2 xc yc
  let R := make q B gd cd
  let m ← addDiv inv R x y (allocZero m q (asize (B :: gd ++ cd)))
  .ok (R, m)

/-- tensors/TensorView.hpp:305-308 `view2()`, 783-784 `view2_of`. -/
def view2 (v : View) : Res RV2 := do
  Res.assrt (v.dims.length = 2)
  let n0 ← Res.get v.dims 0
  let n1 ← Res.get v.dims 1
  let s0 ← Res.get v.strides 0
  let s1 ← Res.get v.strides 1
  .ok ⟨v.off, n0, n1, s0, s1⟩

/-- tensors/TensorView.hpp:561-573 `add_mprod(x,y)`. -/
def viewMprod [Zero α] [Add α] [Mul α] (r x y : View) (m : Buf α) : Res (Buf α) := do
  let r0 ← Res.get r.dims 0
  let r1 ← Res.get r.dims 1
  let x0 ← Res.get x.dims 0
  let x1 ← Res.get x.dims 1
  let y0 ← Res.get y.dims 0
  let y1 ← Res.get y.dims 1
  Res.assrt (x0 = r0)
  Res.assrt (y1 = r1)
  Res.assrt (x1 = y0)
  let r ← view2 r
  let x ← view2 x
  let y ← view2 y
  r.addMatmulAA x y m

/-- tensors/TensorView.hpp:576-588 `add_mprod_AH(x,y)` for real types, where `add_matmul_AH` is `add_matmul_AT`
(tensor_views/Rtensor2_view.hpp:295-297). -/
def viewMprodAH [Zero α] [Add α] [Mul α] (r x y : View) (m : Buf α) : Res (Buf α) := do
  let r0 ← Res.get r.dims 0
  let r1 ← Res.get r.dims 1
  let x0 ← Res.get x.dims 0
  let x1 ← Res.get x.dims 1
  let y0 ← Res.get y.dims 0
  let y1 ← Res.get y.dims 1
  Res.assrt (x0 = r0)
  Res.assrt (y0 = r1)
  Res.assrt (x1 = y1)
  let r ← view2 r
  let x ← view2 x
  let y ← view2 y
  r.addMatmulAT x y m

/-- tensors/BGtensor_products.hpp:133-137 `add_mprod(x,y)`. -/
def addMprod [Zero α] [Add α] [Mul α] (r x y : BG) (m : Buf α) : Res (Buf α) :=
  forEach3 r x y (fun _ _ r x y m => viewMprod r x y m) m

/-- tensors/BGtensor_products.hpp:139-143 `add_mprod_back0(rg,y)`. -/
def addMprodBack0 [Zero α] [Add α] [Mul α] (r x y : BG) (m : Buf α) : Res (Buf α) :=
  forEach3 r x y (fun _ _ r x y m => viewMprodAH r x y m) m

/-- tensors/BGtensor_products.hpp:145-149 `add_mprod_back1(rg,x)`: the same as `add_mprod_back0`. -/
def addMprodBack1 [Zero α] [Add α] [Mul α] (r x y : BG) (m : Buf α) : Res (Buf α) :=
  forEach3 r x y (fun _ _ r x y m => viewMprodAH r x y m) m

/-- tensors/BGtensor_products.hpp:123-131 `mprod(y)`; the result is allocated at `q`. -/
def mprod [Zero α] [Add α] [Mul α] (x y : BG) (q : Nat) (m : Buf α) : Res (BG × Buf α) := do
  Res.assrt (x.v.dims.length = x.ng + 1 + 2 && y.v.dims.length = y.ng + 1 + 2)
  let x1 ← x.cdim 1
  let y0 ← y.cdim 0
  Res.assrt (x1 = y0)
  let xb ← x.getb
  let yb ← y.getb
  let B ← domBatch2 xb yb
  let xg ← x.gdims
  let yg ← y.gdims
  let gd ← domG2 xg yg
  let x0 ← x.cdim 0
  let y1 ← y.cdim 1
  let R := make q B gd [x0, y1]
  let m ← addMprod R x y (allocZero m q (asize (B :: gd ++ [x0, y1])))
  .ok (R, m)

end BG
end Cnine
