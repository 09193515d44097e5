import Verif.Model.Gpu
import Verif.Model.BlockSparse
import Verif.Model.Gather

/-!
# Block sparse matrices on the GPU

cuda/BlockCsparseMatrix.cu with the functions of matrices/BlockCsparseMatrix.hpp that call it for a matrix on the GPU.  The memory is that of the GPU; the tables of integers
that the kernel gets are lists.  `int` has no bounds, `float` is an arbitrary algebraic structure.

Not modelled: `BSM_apply_transp_to_BV_cu` (cuda/BlockCsparseMatrix.cu:75-94), which nothing calls; the caching of the tables.
-/

namespace Cnine

variable {α : Type}

namespace BsmGpu

open Gpu Thr

/-- hpc/GatherMapB.hpp:47-49 for matrices/BlockCsparseMatrix.hpp:52-53: `gather_mapL().on_device(1)`, the table the kernel gets as `ix`. -/
def gatherTable (d : DIMap Nat) : Res (Arr Int) := do
  let g ← GMap.ofMap (d.rmap.map fun p => (p.1, p.2.map Prod.fst)) 1 1 1 1
  g.arr.toTensor

/-- `ix[i]` (cuda/BlockCsparseMatrix.cu:33-35, 40). -/
def tab (a : Arr Int) (i : Int) : Thr α Int :=
  match a.rd i with
  | .ok v => pure v
  | _ => fail

/-- `offsets[b]` (cuda/BlockCsparseMatrix.cu:39). -/
def offs (o : List Nat) (b : Nat) : Thr α Nat :=
  match o[b]? with
  | some t => pure t
  | none => fail

/-- A pointer `p` cells after the start of the memory (cuda/BlockCsparseMatrix.cu:40, 43). -/
def ptr (p : Int) : Thr α Nat := if p < 0 then fail else pure p.toNat

/-- cuda/BlockCsparseMatrix.cu:38-42: the sum a thread makes for one `a`; `g` is where `gather_row` points in the table. -/
def dot [Zero α] [Add α] [Mul α] (xarr xs0 xs1 : Nat) (y : RV2) (bn bm : Nat) (ix : Arr Int) (o : List Nat) (g : Int) (b tx ty a : Nat) : Thr α α := do
  let t ← offs o b
  let s ← tab ix (g + (a + 1))
  Thr.loop bm 0 fun i u => do
    let v ← rd (xarr + ((t + a) * bn + tx) * xs0 + i * xs1)
    let p ← ptr (y.arr + s * bm * y.s0 + ty * y.s1 + i * y.s1)
    let w ← rd p
    pure (u + v * w)

/-- cuda/BlockCsparseMatrix.cu:25-46 `BSM_times_BV_kernel`. -/
def kernel [Zero α] [Add α] [Mul α] (r : RV2) (xarr xs0 xs1 : Nat) (y : RV2) (bn bm : Nat) (ix : Arr Int) (o : List Nat) (n : Nat) (b tx ty : Nat) : Thr α Unit := do
  let h ← tab ix (2 * b)
  let g := 2 * n + h
  let _ ← tab ix (2 * b + 1)
  let target ← tab ix g
  Thr.loop n () fun a _ => do
    let t ← dot xarr xs0 xs1 y bn bm ix o g b tx ty a
    let p ← ptr (r.arr + (target * bn + tx) * r.s0 + ty * r.s1)
    inc p t

/-- cuda/BlockCsparseMatrix.cu:51-69 `BSM_apply_to_BV_cu`: the strides 0 and 1 it takes of `x.mx` are those of a tensor with three axes. -/
def applyCu [Zero α] [Add α] [Mul α] (x : BSM) (r y : RV2) : Res (List (Launch α)) :=
  if x.blockn * y.n1 < 1024 then do
    let ix ← gatherTable x.offsets
    let o ← x.rowOffsets
    .ok [⟨⟨x.offsets.rmap.length, 1, 1⟩, ⟨x.blockn, y.n1, 1⟩, fun b t =>
      kernel r x.mx (x.blockn * x.blockm) x.blockm y x.blockn x.blockm ix o x.offsets.rmap.length b.x t.x t.y⟩]
  else .ok []

/-- matrices/BlockCsparseMatrix.hpp:168-185 `apply_to(r,x)` (here `y`) for matrices on the GPU. -/
def applyTo [Zero α] [Add α] [Mul α] (x : BSM) (r y : RV2) : Res (List (Launch α)) := do
  Res.assrt (y.n0 = x.mblocks * x.blockm)
  Res.assrt (r.n0 = x.nblocks * x.blockn)
  Res.assrt (y.n1 = r.n1)
  applyCu x r y

/-- matrices/BlockCsparseMatrix.hpp:188-205 `apply_transp_to(r,x)` for matrices on the GPU: line 203 calls the function of the product that is not transposed. -/
def applyTranspTo [Zero α] [Add α] [Mul α] (x : BSM) (r y : RV2) : Res (List (Launch α)) := do
  Res.assrt (y.n0 = x.nblocks * x.blockn)
  Res.assrt (r.n0 = x.mblocks * x.blockm)
  Res.assrt (y.n1 = r.n1)
  applyCu x r y

end BsmGpu

end Cnine
