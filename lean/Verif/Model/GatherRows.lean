import Verif.Model.Gather
import Verif.Model.Elem

/-!
# Model of row gathering

hpc/GatherRows.hpp on the host, with the parts of tensor_views/Rtensor2_view.hpp and Rtensor1_view.hpp it uses.
All tensors live in one memory.  Row numbers come from the gather map as `int` and are not checked, so addresses
are integers here.
-/

namespace Cnine

variable {α : Type _}

/-- tensor_views/Rtensor1_view.hpp:49-71. -/
structure M1 where
  arr : Int
  n0 : Int
  s0 : Int

/-- tensor_views/Rtensor2_view.hpp:48-64. -/
structure M2 where
  arr : Int
  n0 : Int
  n1 : Int
  s0 : Int
  s1 : Int

/-- `*p` as an rvalue for a pointer that may be out of the memory. -/
def Buf.readAt (m : Buf α) (a : Int) : Res α := if a < 0 then .ub else m.read a.toNat

/-- `*p+=v`. -/
def Buf.incAt [Add α] (m : Buf α) (a : Int) (v : α) : Res (Buf α) :=
  if a < 0 then .ub else do
    let u ← m.read a.toNat
    m.write a.toNat (u + v)

/-- tensor_views/Rtensor1_view.hpp:183-193 `add(x)` with `inc` 133-138 and `stdadd`
(include/Cnine_base_helpers.hpp:43-48); `is_regular` 98-101. -/
def M1.add [Add α] (r x : M1) (m : Buf α) : Res (Buf α) := do
  Res.assrt (decide (x.n0 = r.n0))
  if r.s0 = 1 ∧ x.s0 = 1 then
    loop r.n0.toNat m fun i m => m.readAt (x.arr + i) >>= fun v => m.incAt (r.arr + i) v
  else
    loop r.n0.toNat m fun i m => m.readAt (x.arr + x.s0 * i) >>= fun v => m.incAt (r.arr + r.s0 * i) v

/-- tensor_views/Rtensor1_view.hpp:195-205 `add(x,c)`. -/
def M1.addScaled [Add α] [Mul α] (r x : M1) (c : α) (m : Buf α) : Res (Buf α) := do
  Res.assrt (decide (x.n0 = r.n0))
  if r.s0 = 1 ∧ x.s0 = 1 then
    loop r.n0.toNat m fun i m => m.readAt (x.arr + i) >>= fun v => m.incAt (r.arr + i) (c * v)
  else
    loop r.n0.toNat m fun i m => m.readAt (x.arr + x.s0 * i) >>= fun v => m.incAt (r.arr + r.s0 * i) (c * v)

namespace M2

/-- tensor_views/Rtensor2_view.hpp:568-571 `slice0(i)`. -/
def slice0 (v : M2) (i : Int) : M1 := ⟨v.arr + i * v.s0, v.n1, v.s1⟩

/-- tensors/TensorView.hpp:305-308,783-784 `view2()`. -/
def ofView (v : View) : Res M2 :=
  match v.dims, v.strides with
  | [d0, d1], s0 :: s1 :: _ => .ok ⟨v.off, d0, d1, s0, s1⟩
  | [_, _], _ => .ub
  | _, _ => .throw

/-- hpc/GatherRows.hpp:61-64 (= 65-68): the matrix with `cols` columns per row turned into rows. -/
def fold (v : M2) (cols colsN : Nat) : M2 :=
  { v with n0 := v.n0 * cols, n1 := (v.n1 * colsN).tdiv cols, s0 := v.s0.tdiv cols }

end M2

namespace GatherRows

/-- hpc/GatherRows.hpp:78-80: `k` sources of row `i` from `j` on. -/
def rowLoop [Add α] (g : GMap) (t : M1) (x : M2) (i j : Int) : Nat → Buf α → Res (Buf α)
  | 0, m => .ok m
  | k + 1, m => do
    let s ← HL.get g.arr i j
    let m ← t.add (x.slice0 s) m
    rowLoop g t x i (j + 1) k m

/-- hpc/GatherRows.hpp:75-82: `k` rows from `i` on. -/
def rowsLoop [Add α] (g : GMap) (r x : M2) (i : Int) : Nat → Buf α → Res (Buf α)
  | 0, m => .ok m
  | k + 1, m => do
    let t ← HL.head g.arr i
    let M ← HL.sizeOf g.arr i
    let m ← rowLoop g (r.slice0 t) x i 0 M.toNat m
    rowsLoop g r x (i + 1) k m

/-- hpc/GatherRows.hpp:59-83: the part after the fixed-k maps and the weighted pass. -/
def plain [Add α] (g : GMap) (r x : View) (m : Buf α) : Res (Buf α) :=
  if g.arr.size = 0 then .ok m else do
    let r ← M2.ofView r
    let x ← M2.ofView x
    let r := r.fold g.outCols g.outColsN
    let x := x.fold g.inCols g.inColsN
    Res.assrt (decide (r.n1 = x.n1))
    rowsLoop g r x 0 g.arr.size.toNat m

/-- hpc/GatherRows.hpp:43-46: ranks and divisibility; `% 0` is undefined. -/
def checks (r x : View) (oc ic : Nat) : Res Unit := do
  Res.assrt (decide (r.dims.length = 2))
  Res.need (oc ≠ 0)
  Res.assrt (decide (r.dims.getD 1 0 % oc = 0))
  Res.assrt (decide (x.dims.length = 2))
  Res.need (ic ≠ 0)
  Res.assrt (decide (x.dims.getD 1 0 % ic = 0))

/-- hpc/GatherRows.hpp:163-184: one fixed-k map (rows; `n0/=`, `n1*=`, `s0` unchanged), `cols` = its column
counts (1 for the maps made by `grade`, hpc/FixedkGatherMap.hpp:34-35). -/
def fixedk [Add α] (f : GMap.Fixedk) (oc ic : Nat) (r x : View) (m : Buf α) : Res (Buf α) := do
  Res.assrt (decide (r.dims.length = 2))
  Res.need (oc ≠ 0)
  Res.assrt (decide (r.dims.getD 0 0 % oc = 0))
  Res.assrt (decide (x.dims.length = 2))
  Res.need (ic ≠ 0)
  Res.assrt (decide (x.dims.getD 0 0 % ic = 0))
  let r ← M2.ofView r
  let x ← M2.ofView x
  let r := { r with n0 := r.n0.tdiv oc, n1 := r.n1 * oc }
  let x := { x with n0 := x.n0.tdiv ic, n1 := x.n1 * ic }
  Res.forM f.edges m fun m e => (r.slice0 e.1).add (x.slice0 e.2) m

/-- hpc/GatherRows.hpp:40-83 for an unweighted map `g` with the fixed-k maps `fs`. -/
def gather [Add α] (g : GMap) (fs : List GMap.Fixedk) (r x : View) (m : Buf α) : Res (Buf α) := do
  checks r x g.outCols g.inCols
  let m ← Res.forM fs m fun m f => fixedk f 1 1 r x m
  plain g r x m

/-- hpc/GatherRows.hpp:147-148: `k` entries of row `i` from `j` on; `wt` turns the stored bits into a weight. -/
def rowLoopW [Add α] [Mul α] (wt : Int → α) (g : GMap) (t : M1) (x : M2) (i j : Int) : Nat → Buf α → Res (Buf α)
  | 0, m => .ok m
  | k + 1, m => do
    let s ← WMap.src g i j
    let w ← WMap.weight g i j
    let m ← t.addScaled (x.slice0 s) (wt w) m
    rowLoopW wt g t x i (j + 1) k m

/-- hpc/GatherRows.hpp:143-149. -/
def rowsLoopW [Add α] [Mul α] (wt : Int → α) (g : GMap) (r x : M2) (i : Int) : Nat → Buf α → Res (Buf α)
  | 0, m => .ok m
  | k + 1, m => do
    let t ← HL.head g.arr i
    let M ← WMap.sizeOf g i
    let m ← rowLoopW wt g { r.slice0 t with n0 := x.n1 } x i 0 M.toNat m
    rowsLoopW wt g r x (i + 1) k m

/-- hpc/GatherRows.hpp:128-150: `weighted(r,x,g)`; the width of a target row is set to that of the source. -/
def weighted [Add α] [Mul α] (wt : Int → α) (g : GMap) (r x : View) (m : Buf α) : Res (Buf α) := do
  let r ← M2.ofView r
  let x ← M2.ofView x
  rowsLoopW wt g (r.fold g.outCols 1) (x.fold g.inCols 1) 0 g.arr.size.toNat m

/-- hpc/GatherRows.hpp:40-83 for a weighted map: the weighted pass is followed by the unweighted one, which reads
the interleaved list of the base class (`size_of` and `operator()` of GatherMapB, hpc/GatherMapB.hpp:289-303, are
not virtual). -/
def gatherW [Add α] [Mul α] (wt : Int → α) (g : GMap) (r x : View) (m : Buf α) : Res (Buf α) := do
  checks r x g.outCols g.inCols
  let m ← weighted wt g r x m
  plain g r x m

/-- tensors/TensorView_subtensors.inc:24-28 `rows(i,n)` for natural `i`, `n`. -/
def rows (v : View) (i n : Int) : Res View := do
  Res.assrt (decide (v.dims.length = 2))
  let d0 ← Res.get v.dims 0
  Res.assrt (decide (i + n ≤ d0))
  let d1 ← Res.get v.dims 1
  let s0 ← Res.get v.strides 0
  let s1 ← Res.get v.strides 1
  Res.need (0 ≤ i ∧ 0 ≤ n)
  .ok ⟨v.off + s0 * i.toNat, [n.toNat, d1], [s0, s1]⟩

/-- hpc/GatherRows.hpp:110-114: one round of the loop over a pack. -/
def packRound [Add α] (p : GPack) (r x : View) (i : Nat) (m : Buf α) : Res (Buf α) := do
  let g ← Res.get p.maps i
  let oo ← Res.get p.outOffs i
  let io ← Res.get p.inOffs i
  let ri ← rows r oo g.nOut
  let xi ← rows x io g.nIn
  gather g [] ri xi m

/-- hpc/GatherRows.hpp:92-115: gathering with a pack (no fixed-k maps).  `MultiLoop` may run the rounds in any
order and at the same time; here they run in order. -/
def gatherPack [Add α] (p : GPack) (r x : View) (m : Buf α) : Res (Buf α) := do
  checks r x p.outCols p.inCols
  if p.maps.length = 0 then .ok m else do
    let r' ← M2.ofView r
    let x' ← M2.ofView x
    Res.assrt (decide ((r'.fold p.outCols p.outColsN).n1 = (x'.fold p.inCols p.inColsN).n1))
    loop p.maps.length m fun i m => packRound p r x i m

end GatherRows

end Cnine
