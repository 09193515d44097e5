import Verif.Model.RView
import Verif.Model.Gpu

/-!
# Maps over the cells of arrays of tensors

include/Cmaps.hpp and legacy/tensor_array/cell_maps.  An array of tensors is a row of cells in one memory; a cell takes one place here (in the code `cellstride` floats, twice).
What is done to the cells is a parameter, as in the templates.  The branch `r.dev==0` is modelled for all maps; `r.dev==1` where the call is commented out; the kernels that the
other maps call are modelled on the level of floats.
-/

namespace Cnine

variable {V : Type}

namespace CMap

/-- An array of tensors (legacy/backendA/CtensorArrayA.hpp:59-68): where its first cell lies, the dimensions of the array and the device. -/
structure Arr where
  off : Nat
  adims : List Nat
  dev : Nat := 0
deriving DecidableEq, Repr

/-- `aasize`, the number of cells (legacy/backendA/CtensorArrayA.hpp:104). -/
def Arr.aasize (a : Arr) : Nat := a.adims.prod

/-- legacy/backendA/CtensorArrayA.hpp:487-489 `get_adim`. -/
def Arr.adim (a : Arr) (i : Nat) : Res Nat := Res.get a.adims i

/-- legacy/backendA/CtensorArrayA.hpp:630-643 `cell(i)` and `cell_view(i)`. -/
def Arr.cell (a : Arr) (i : Nat) : Nat := a.off + i

/-- legacy/backendA/CtensorArrayA.hpp:645-661, 663-682 `cell(i,j)` and `cell({i,j})`; `astrides` as set in 105-106, in row-major order. -/
def Arr.cell2 (a : Arr) (i j : Nat) : Res Nat :=
  match a.adims with
  | _ :: d1 :: ds => .ok (a.off + (i * (d1 * ds.prod) + j * ds.prod))
  | _ => .ub

/-- What a cell operation with `add_flag` does: `op.apply(t,x,y,add_flag)` (legacy/tensor_array/cell_ops/CtensorA_plus_cop.hpp:48). -/
abbrev Op (V : Type) := Buf V → Nat → Nat → Nat → Bool → Res (Buf V)

/-- What a cell operation without `add_flag` does: `op(t,x,y)` (legacy/tensor_array/cell_ops/CtensorA_add_plus_cop.hpp:36). -/
abbrev Op3 (V : Type) := Buf V → Nat → Nat → Nat → Res (Buf V)

/-- legacy/tensor_array/cell_ops/CtensorA_plus_cop.hpp:48-56 `CtensorA_plus_cop::apply`. -/
def plusCop [Add V] : Op V := fun m t x y flag =>
  if flag = false then do
    let m ← copyCell m t x
    updCell (· + ·) m t y
  else do
    let m ← updCell (· + ·) m t x
    updCell (· + ·) m t y

/-- legacy/tensor_array/cell_ops/CtensorA_add_plus_cop.hpp:36-39 `CtensorA_add_plus_cop::operator()`. -/
def addPlusCop [Add V] : Op3 V := fun m t x y => do
  let m ← updCell (· + ·) m t x
  updCell (· + ·) m t y

/-! ### legacy/tensor_array/cell_maps -/

/-- legacy/tensor_array/cell_maps/CellwiseBinaryCmap.hpp:33-46 on the CPU. -/
def cellwise (op : Op V) (r x y : Arr) (flag : Bool) (m : Buf V) : Res (Buf V) := do
  Res.assrt (decide (x.aasize = r.aasize))
  Res.assrt (decide (y.aasize = r.aasize))
  loop r.aasize m fun i m => op m (r.cell i) (x.cell i) (y.cell i) flag

/-- legacy/tensor_array/cell_maps/OuterCmap.hpp:30-46 on the CPU. -/
def outer (op : Op V) (r x y : Arr) (flag : Bool) (m : Buf V) : Res (Buf V) := do
  Res.assrt (decide (r.aasize = x.aasize * y.aasize))
  loop x.aasize m fun i m => loop y.aasize m fun j m => op m (r.cell (i * y.aasize + j)) (x.cell i) (y.cell j) flag

/-- legacy/tensor_array/cell_maps/InnerCmap.hpp:29-40; on the GPU nothing is done. -/
def inner (op : Op V) (r x y : Arr) (flag : Bool) (m : Buf V) : Res (Buf V) := do
  Res.assrt (decide (y.aasize = x.aasize))
  if r.dev = 0 then loop x.aasize m fun i m => op m (r.cell 0) (x.cell i) (y.cell i) flag
  else .ok m

/-- legacy/tensor_array/cell_maps/MVprodCmap.hpp:30-48; on the GPU nothing is done. -/
def mvprod (op : Op V) (r x y : Arr) (flag : Bool) (m : Buf V) : Res (Buf V) := do
  let I ← x.adim 0
  let J ← x.adim 1
  Res.assrt (decide (r.aasize = I))
  Res.assrt (decide (y.aasize = J))
  if r.dev = 0 then
    if J = 0 then .ok m
    else
      loop I m fun i m => do
        let m ← if flag = false then do
            let p ← x.cell2 i 0
            op m (r.cell i) p (y.cell 0) false
          else .ok m
        let s := if flag then 0 else 1
        loop (J - s) m fun j m => do
          let p ← x.cell2 i (s + j)
          op m (r.cell i) p (y.cell (s + j)) true
  else .ok m

/-- legacy/tensor_array/cell_maps/VMprodCmap.hpp:30-48; on the GPU nothing is done. -/
def vmprod (op : Op V) (r x y : Arr) (flag : Bool) (m : Buf V) : Res (Buf V) := do
  let J ← y.adim 0
  let I ← y.adim 1
  Res.assrt (decide (r.aasize = I))
  Res.assrt (decide (x.aasize = J))
  if r.dev = 0 then
    if J = 0 then .ok m
    else
      loop I m fun i m => do
        let m ← if flag = false then do
            let p ← y.cell2 0 i
            op m (r.cell i) (x.cell 0) p false
          else .ok m
        let s := if flag then 0 else 1
        loop (J - s) m fun j m => do
          let p ← y.cell2 (s + j) i
          op m (r.cell i) (x.cell (s + j)) p true
  else .ok m

/-- legacy/tensor_array/cell_maps/Convolve2Cmap.hpp:30-59; `add_flag` is not looked at; on the GPU nothing is done. -/
def convolve2 (op : Op V) (r x y : Arr) (m : Buf V) : Res (Buf V) := do
  Res.assrt (decide (r.adims.length = 2))
  Res.assrt (decide (x.adims.length = 2))
  Res.assrt (decide (y.adims.length = 2))
  let I0 ← r.adim 0
  let I1 ← r.adim 1
  let J0 ← y.adim 0
  let J1 ← y.adim 1
  let X0 ← x.adim 0
  let X1 ← x.adim 1
  Res.assrt (decide ((X0 : Int) = I0 + J0 - 1))
  Res.assrt (decide ((X1 : Int) = I1 + J1 - 1))
  if r.dev = 0 then
    loop I0 m fun i0 m => loop I1 m fun i1 m => loop J0 m fun j0 m => loop J1 m fun j1 m => do
      let t ← r.cell2 i0 i1
      let p ← x.cell2 (i0 + j0) (i1 + j1)
      let q ← y.cell2 j0 j1
      op m t p q true
  else .ok m

/-- legacy/tensor_array/cell_maps/BroadcastBinaryCmap.hpp:27-40 on the CPU.  The constructor reads the member `I` without putting anything into it; `mem` is what it holds, `none` for
a new object. -/
def broadcastBinary (mem : Option Nat) (op : Op V) (r : Arr) (x : Nat) (y : Arr) (flag : Bool) (m : Buf V) : Res (Buf V) :=
  match mem with
  | none => .ub
  | some I => do
    Res.assrt (decide (y.aasize = I))
    loop I m fun i m => op m (r.cell i) x (y.cell i) flag

/-! ### include/Cmaps.hpp -/

/-- include/Cmaps.hpp:107-120 `CellwiseUCmap`, the branch `r.dev==0`. -/
def cellwiseU (op : Buf V → Nat → Nat → Res (Buf V)) (r x : Arr) (m : Buf V) : Res (Buf V) := do
  Res.assrt (decide (x.aasize = r.aasize))
  Res.assrt (decide (x.dev = 1))
  loop r.aasize m fun i m => op m (r.cell i) (x.cell i)

/-- include/Cmaps.hpp:142-156 `BroadcastUCmap`, the branch `r.dev==0`. -/
def broadcastU (op : Buf V → Nat → Nat → Res (Buf V)) (r x : Arr) (m : Buf V) : Res (Buf V) := do
  Res.assrt (decide (x.aasize = 1))
  Res.assrt (decide (x.dev = 0))
  loop r.aasize m fun i m => op m (r.cell i) (x.cell 0)

/-- include/Cmaps.hpp:216-229 `CellwiseBiCmap`, the branch `r.dev==0`. -/
def cellwiseBi (op : Op3 V) (r x y : Arr) (m : Buf V) : Res (Buf V) := do
  Res.assrt (decide (x.aasize = r.aasize))
  Res.assrt (decide (y.aasize = r.aasize))
  loop r.aasize m fun i m => op m (r.cell i) (x.cell i) (y.cell i)

/-- include/Cmaps.hpp:251-263 `BroadcastLeftBiCmap`, the branch `r.dev==0`. -/
def broadcastLeft (op : Op3 V) (r x y : Arr) (m : Buf V) : Res (Buf V) := do
  Res.assrt (decide (y.aasize = r.aasize))
  loop r.aasize m fun i m => op m (r.cell i) (x.cell 0) (y.cell i)

/-- include/Cmaps.hpp:285-297 `BroadcastRightBiCmap`, the branch `r.dev==0`. -/
def broadcastRight (op : Op3 V) (r x y : Arr) (m : Buf V) : Res (Buf V) := do
  Res.assrt (decide (x.aasize = r.aasize))
  loop r.aasize m fun i m => op m (r.cell i) (x.cell i) (y.cell 0)

/-- include/Cmaps.hpp:319-330 `InnerBiCmap`, the branch `r.dev==0`. -/
def innerBi (op : Op3 V) (r x y : Arr) (m : Buf V) : Res (Buf V) := do
  Res.assrt (decide (y.aasize = x.aasize))
  loop x.aasize m fun i m => op m (r.cell 0) (x.cell i) (y.cell i)

/-- include/Cmaps.hpp:354-369 `OuterBiCmap`, the branch `r.dev==0`. -/
def outerBi (op : Op3 V) (r x y : Arr) (m : Buf V) : Res (Buf V) := do
  Res.assrt (decide (r.aasize = x.aasize * y.aasize))
  loop x.aasize m fun i m => loop y.aasize m fun j m => op m (r.cell (i * y.aasize + j)) (x.cell i) (y.cell j)

/-- include/Cmaps.hpp:391-406 `MprodBiCmap`, the branch `r.dev==0`. -/
def mprodBi (op : Op3 V) (r x y : Arr) (m : Buf V) : Res (Buf V) := do
  Res.assrt (decide (x.aasize = r.aasize * y.aasize))
  loop r.aasize m fun i m => loop y.aasize m fun j m => op m (r.cell i) (x.cell (i * y.aasize + j)) (y.cell j)

/-- include/Cmaps.hpp:429-444 `Convolve1BiCmap`, the branch `r.dev==0`. -/
def convolve1Bi (op : Op3 V) (r x y : Arr) (m : Buf V) : Res (Buf V) := do
  Res.assrt (decide (x.aasize = r.aasize + y.aasize))
  loop r.aasize m fun i m => loop y.aasize m fun j m => op m (r.cell i) (x.cell (i + j)) (y.cell j)

/-- include/Cmaps.hpp:468-499 `Convolve2BiCmap`, the branch `r.dev==0`: the loops of `convolve2`, for an operation without `add_flag`. -/
def convolve2Bi (op : Op3 V) (r x y : Arr) (m : Buf V) : Res (Buf V) :=
  convolve2 (fun m t x y _ => op m t x y) { r with dev := 0 } x y m

/-! ### The kernels -/

/-- The two rows of floats of an array on the GPU: `arrg`, `arrgc` and `cellstride` (legacy/backendA/CtensorArrayA.hpp:102-103). -/
structure GArr where
  arr : Nat
  arrc : Nat
  stride : Nat
deriving DecidableEq, Repr

/-- The float `t` of cell `i`, real part (cuda/CtensorA_plus.cu:44). -/
def GArr.re (a : GArr) (i t : Nat) : Nat := a.arr + (i * a.stride + t)

/-- The float `t` of cell `i`, imaginary part (cuda/CtensorA_plus.cu:45). -/
def GArr.im (a : GArr) (i t : Nat) : Nat := a.arrc + (i * a.stride + t)

open Gpu

/-- cuda/CtensorA_plus.cu:34-46 `CtensorA_plus_kernel`. -/
def plusK [Add V] (r x y : GArr) (map : D3 → Nat × Nat × Nat) : D3 → D3 → Thr V Unit := fun b t => do
  let q := map b
  let xr ← Thr.rd (x.re q.2.1 t.x)
  let yr ← Thr.rd (y.re q.2.2 t.x)
  Thr.wr (r.re q.1 t.x) (xr + yr)
  let xi ← Thr.rd (x.im q.2.1 t.x)
  let yi ← Thr.rd (y.im q.2.2 t.x)
  Thr.wr (r.im q.1 t.x) (xi + yi)

/-- cuda/CtensorA_plus.cu:49-61 `CtensorA_add_plus_kernel`. -/
def addPlusK [Add V] (r x y : GArr) (map : D3 → Nat × Nat × Nat) : D3 → D3 → Thr V Unit := fun b t => do
  let q := map b
  let xr ← Thr.rd (x.re q.2.1 t.x)
  let yr ← Thr.rd (y.re q.2.2 t.x)
  Thr.inc (r.re q.1 t.x) (xr + yr)
  let xi ← Thr.rd (x.im q.2.1 t.x)
  let yi ← Thr.rd (y.im q.2.2 t.x)
  Thr.inc (r.im q.1 t.x) (xi + yi)

/-- cuda/CtensorA_add_plus.cu:26-38 `CtensorA_add_plus_kernel`: the last statement takes `yarr`. -/
def addPlusOldK [Add V] (r x y : GArr) (map : D3 → Nat × Nat × Nat) : D3 → D3 → Thr V Unit := fun b t => do
  let q := map b
  let xr ← Thr.rd (x.re q.2.1 t.x)
  let yr ← Thr.rd (y.re q.2.2 t.x)
  Thr.inc (r.re q.1 t.x) (xr + yr)
  let xi ← Thr.rd (x.im q.2.1 t.x)
  let yi ← Thr.rd (y.re q.2.2 t.x)
  Thr.inc (r.im q.1 t.x) (xi + yi)

/-- cuda/CtensorA_plus.cu:64-95 `CtensorA_plus_accumulator_kernel`.  `shared[t]` and `shared[t+rstride]` are touched by thread `t` only and are local variables here. -/
def accK [Add V] (r x y : GArr) (nAccum target : Nat → Nat) (source : Nat → Nat → Nat × Nat) : D3 → D3 → Thr V Unit := fun b t => do
  let sr ← Thr.rd (r.re (target b.x) t.x)
  let si ← Thr.rd (r.im (target b.x) t.x)
  let s ← Thr.loop (nAccum b.x) (sr, si) fun i (s : V × V) => do
    let xr ← Thr.rd (x.re (source b.x i).1 t.x)
    let yr ← Thr.rd (y.re (source b.x i).2 t.x)
    let xi ← Thr.rd (x.im (source b.x i).1 t.x)
    let yi ← Thr.rd (y.im (source b.x i).2 t.x)
    pure (s.1 + (xr + yr), s.2 + (xi + yi))
  Thr.wr (r.re (target b.x) t.x) s.1
  Thr.wr (r.im (target b.x) t.x) s.2

/-- cuda/CtensorA_plus.cu:103-117 `CtensorA_plus_cu`. -/
def plusCu [Add V] (grid : D3) (map : D3 → Nat × Nat × Nat) (r x y : GArr) (asize : Nat) (flag : Bool) : List (Launch V) :=
  if flag = false then [⟨grid, ⟨asize, 1, 1⟩, plusK r x y map⟩] else [⟨grid, ⟨asize, 1, 1⟩, addPlusK r x y map⟩]

/-- cuda/CtensorA_add_plus.cu:43-50 `CtensorA_add_plus_cu`. -/
def addPlusCu [Add V] (grid : D3) (map : D3 → Nat × Nat × Nat) (r x y : GArr) (asize : Nat) : List (Launch V) := [⟨grid, ⟨asize, 1, 1⟩, addPlusOldK r x y map⟩]

/-- cuda/CtensorA_plus.cu:117-124 `CtensorA_plus_accumulator_cu`, with the number of blocks. -/
def accCu [Add V] (blocks : Nat) (nAccum target : Nat → Nat) (source : Nat → Nat → Nat × Nat) (r x y : GArr) (asize : Nat) : List (Launch V) :=
  [⟨⟨blocks, 1, 1⟩, ⟨asize, 1, 1⟩, accK r x y nAccum target source⟩]

/-- legacy/tensor_array/cell_maps/CellwiseBinaryCmap.hpp:50-56. -/
def cellwiseMap : D3 → Nat × Nat × Nat := fun b => (b.x, b.x, b.x)

/-- legacy/tensor_array/cell_maps/OuterCmap.hpp:54-57. -/
def outerMap (n : Nat) : D3 → Nat × Nat × Nat := fun b => (b.x * n + b.y, b.x, b.y)

/-- include/Cmaps.hpp:271-273 `BroadcastLeftBiCmap`. -/
def leftMap : D3 → Nat × Nat × Nat := fun b => (b.x, 0, b.x)

/-- include/Cmaps.hpp:414-416 `MprodBiCmap`. -/
def mprodMap (J : Nat) : D3 → Nat × Nat × Nat := fun b => (b.x, b.x * J + b.z, b.z)

/-- legacy/tensor_array/cell_maps/MVprodCmap.hpp:68-70 `source`. -/
def mvSource (J : Nat) : Nat → Nat → Nat × Nat := fun b i => (b * J + i, i)

/-- legacy/tensor_array/cell_maps/VMprodCmap.hpp:68-70 `source`. -/
def vmSource (I : Nat) : Nat → Nat → Nat × Nat := fun b i => (i, i * I + b)

/-- legacy/tensor_array/cell_maps/Convolve2Cmap.hpp:79-85 `source`. -/
def conv2Source (rs xs ys : Nat) : Nat → Nat → Nat × Nat := fun b j => ((b / rs + j / ys) * xs + (b % rs + j % ys), j)

/-! ### include/CellMask2r.hpp -/

/-- The lists of a mask: for each target the pairs of sources, in the order of the map (include/CellMask2r.hpp:38). -/
abbrev Mask := List (Nat × List (Nat × Nat))

/-- include/CellMask2r.hpp:95-106 `push`: for a target that has no list yet the pointer `lst` is not set. -/
def Mask.push (l : Mask) (r x y : Nat) : Res Mask :=
  if r ∈ l.map (·.1) then .ok (l.map fun p => if p.1 = r then (p.1, p.2 ++ [(x, y)]) else p) else .ub

/-- One list in the table (include/CellMask2r.hpp:123-129). -/
def Mask.entry (p : Nat × List (Nat × Nat)) : List Nat := p.1 :: p.2.length :: p.2.flatMap fun q => [q.1, q.2]

/-- include/CellMask2r.hpp:113-131 `prepare`: where the lists start, then the lists. -/
def Mask.starts : Nat → Mask → List Nat
  | _, [] => []
  | lp, p :: l => lp :: starts (lp + (2 + 2 * p.2.length)) l

/-- include/CellMask2r.hpp:113-131 `prepare`, the whole table. -/
def Mask.table (l : Mask) : List Nat := l.starts l.length ++ l.flatMap Mask.entry

/-- legacy/tensor_array/cell_maps/accumulate_cmap.hpp:69-71 `n_accum`. -/
def Mask.nAccum (T : List Nat) (b : Nat) : Res Nat := do
  let p ← Res.get T b
  Res.get T (p + 1)

/-- legacy/tensor_array/cell_maps/accumulate_cmap.hpp:73-75 `target`. -/
def Mask.target (T : List Nat) (b : Nat) : Res Nat := do
  let p ← Res.get T b
  Res.get T p

/-- legacy/tensor_array/cell_maps/accumulate_cmap.hpp:77-83 `source` at `lst_ptr`. -/
def Mask.source (T : List Nat) (b j : Nat) : Res (Nat × Nat) := do
  let p ← Res.get T b
  let x ← Res.get T (p + 2 + 2 * j)
  let y ← Res.get T (p + 2 + 2 * j + 1)
  .ok (x, y)

/-- One list on the CPU (legacy/tensor_array/cell_maps/accumulate_cmap.hpp:37-43). -/
def accOne (op : Op V) (r x y : Arr) (flag : Bool) (p : Nat × List (Nat × Nat)) (m : Buf V) : Res (Buf V) :=
  match p.2 with
  | [] => .ok m
  | q :: qs => do
    let m ← op m (r.cell p.1) (x.cell q.1) (y.cell q.2) flag
    Res.forM qs m fun m q => op m (r.cell p.1) (x.cell q.1) (y.cell q.2) true

/-- legacy/tensor_array/cell_maps/accumulate_cmap.hpp:33-48 on the CPU. -/
def accumulate (op : Op V) (mask : Mask) (r x y : Arr) (flag : Bool) (m : Buf V) : Res (Buf V) := do
  Res.assrt flag
  Res.forM mask m fun m p => accOne op r x y flag p m

end CMap

end Cnine
