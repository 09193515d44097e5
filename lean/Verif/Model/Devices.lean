import Verif.Model.Construct
import Verif.Model.GpuT

/-!
# Tensors of the host and of the GPU

Assignment between devices, copies and moves of `TensorView`.  Each device has a memory of its own; a new block starts where the last one ended and holds `junk`.
Blocks are not released.  The GPU is one device (`dev` is 0 or 1).  `kern r x m` is what `TensorView_assign_cu` leaves of the memory `m` of the GPU: any outcome of its
launches (`Gpu.Out`).  Calls get a bound on their depth; running out of it is `ub` (an overflow of the stack).
-/

namespace Cnine

variable {α : Type}

namespace Dev

/-- The memories of the devices (include/MemBlob.hpp:60-82) and where their next blocks start. -/
structure Mems (α : Type) where
  host : Buf α
  gpu : Buf α
  htop : Nat
  gtop : Nat

/-- tensors/TensorView.hpp:111-114: a tensor of the host, or of the GPU (`dev`). -/
structure DV where
  v : View
  dev : Bool
deriving DecidableEq, Repr

/-- The memory of a device. -/
def Mems.buf (m : Mems α) (d : Bool) : Buf α := if d then m.gpu else m.host

/-- Where the next block of a device starts. -/
def Mems.top (m : Mems α) (d : Bool) : Nat := if d then m.gtop else m.htop

/-- The memory of a device after a change. -/
def Mems.put (m : Mems α) (d : Bool) (b : Buf α) : Mems α := if d then { m with gpu := b } else { m with host := b }

/-- include/MemArr.hpp:47-48 `MemArr(n,dev)`: a block of `n` cells, which starts at the former `top`. -/
def Mems.alloc (junk : Nat → α) (m : Mems α) (d : Bool) (n : Nat) : Mems α :=
  if d then { m with gpu := allocRaw junk m.gpu m.gtop n, gtop := m.gtop + n } else { m with host := allocRaw junk m.host m.htop n, htop := m.htop + n }

/-- cuda/TensorView_assign.cu:64-129 `TensorView_assign_cu`: no axes, nothing; four axes or more, a message (127). -/
def cuAssign [Add α] (r x : View) : List (Gpu.Launch α) :=
  match r.dims, r.strides, x.strides with
  | [n0], [r0], [x0] => Gpu.tv1 .assign ⟨r.off, n0, r0⟩ ⟨x.off, n0, x0⟩
  | [n0, n1], [r0, r1], [x0, x1] => Gpu.tv2 .assign ⟨r.off, n0, n1, r0, r1⟩ ⟨x.off, n0, n1, x0, x1⟩
  | [n0, n1, n2], [r0, r1, r2], [x0, x1, x2] => Gpu.tv3 .assign ⟨r.off, n0, n1, n2, r0, r1, r2⟩ ⟨x.off, n0, n1, n2, x0, x1, x2⟩
  | _, _, _ => []

/-- `cudaMemcpy` between different memories: `n` cells of `src` from `s` to `dst` from `d`. -/
def memcpy (src : Buf α) (s n : Nat) (dst : Buf α) (d : Nat) : Res (Buf α) :=
  loop n dst fun i b => do
    let v ← src.read (s + i)
    b.write (d + i) v

/-- tensors/functions/TensorView_assign.hpp:90-100 `TensorView_assign_copy`.  Within the GPU `cudaMemcpy` is undefined when the blocks overlap. -/
def assignCopy (r x : DV) (m : Mems α) : Res (Mems α) := do
  let n ← memsize x.v.strides x.v.dims
  if r.dev = x.dev then do
    if r.dev = true ∧ r.v.off < x.v.off + n ∧ x.v.off < r.v.off + n then .ub
    else do
      let b ← stdCopy (m.buf r.dev) x.v.off n r.v.off
      .ok (m.put r.dev b)
  else do
    let b ← memcpy (m.buf x.dev) x.v.off n (m.buf r.dev) r.v.off
    .ok (m.put r.dev b)

section

variable (kern : View → View → Buf α → Res (Buf α)) (junk : Nat → α) (num : Bool)

/-- tensors/functions/TensorView_assign.hpp:36-86 `TensorView_assign`; `num` tells that the type is `int`, `float` or `double` (63-66).  The temporary tensors of lines 69
and 80 are made by tensors/TensorView.hpp:265-268. -/
def assign : Nat → DV → DV → Mems α → Res (Mems α)
  | 0, _, _, _ => .ub
  | f + 1, r, x, m => do
    Res.assrt (r.v.dims = x.v.dims)
    let m ← (if r.v.dims.length = 0 then (if r.dev = false ∧ x.dev = false then do
        let b ← copyCell m.host r.v.off x.v.off
        .ok (m.put false b)
      else assignCopy r x m) else .ok m)
    if asize r.v.dims = 0 then .ok m
    else do
      let c ← isContiguous r.v.strides r.v.dims
      if c = true ∧ r.v.strides = x.v.strides then assignCopy r x m
      else do
        let (rp, xp) ← r.v.coScrunch x.v
        if r.dev = false ∧ x.dev = false then do
          let b ← rp.assignLoops xp m.host
          .ok (m.put false b)
        else if num = false then .ok m
        else if r.dev = true then
          if x.dev = false then do
            let t := View.new (m.top true) xp.dims
            let m ← assign f ⟨t, true⟩ ⟨xp, false⟩ (m.alloc junk true (asize xp.dims))
            let b ← kern rp t m.gpu
            .ok (m.put true b)
          else do
            let b ← kern rp xp m.gpu
            .ok (m.put true b)
        else do
          let c ← isContiguous rp.strides rp.dims
          if c = true then do
            let n ← memsize rp.strides rp.dims
            let z : View := ⟨m.top true, rp.dims, rp.strides⟩
            let m := m.alloc junk true n
            let b ← kern z xp m.gpu
            assign f ⟨rp, false⟩ ⟨z, true⟩ (m.put true b)
          else do
            let z := View.new (m.top false) xp.dims
            let m ← assign f ⟨z, false⟩ ⟨xp, true⟩ (m.alloc junk false (asize xp.dims))
            assign f ⟨rp, false⟩ ⟨z, false⟩ m

/-- tensors/TensorView.hpp:265-268 `TensorView(x,_dev)`. -/
def ofDev (f : Nat) (x : DV) (d : Bool) (m : Mems α) : Res (DV × Mems α) := do
  let t : DV := ⟨View.new (m.top d) x.v.dims, d⟩
  let m ← assign kern junk num f t x (m.alloc junk d (asize x.v.dims))
  .ok (t, m)

/-- tensors/TensorView.hpp:238-242 `copy(_dev)` and 232-236 `copy()`: the new tensor is filled with zeros first. -/
def copyTo [Zero α] (f : Nat) (x : DV) (d : Bool) (m : Mems α) : Res (DV × Mems α) := do
  let t : DV := ⟨View.new (m.top d) x.v.dims, d⟩
  let m' ← assign kern junk num f t x (m.alloc (fun _ => 0) d (asize x.v.dims))
  .ok (t, m')

/-- tensors/TensorView.hpp:244-249 `copy_keeping_strides(_dev)`. -/
def copyKeeping (f : Nat) (x : DV) (d : Bool) (m : Mems α) : Res (DV × Mems α) := do
  let n ← memsize x.v.strides x.v.dims
  let t : DV := ⟨⟨m.top d, x.v.dims, x.v.strides⟩, d⟩
  let m ← assign kern junk num f t x (m.alloc junk d n)
  .ok (t, m)

/-- tensors/TensorView.hpp:271-275 `move_to_device(_dev)`: takes the block of the new tensor but not its strides. -/
def moveTo (f : Nat) (x : DV) (d : Bool) (m : Mems α) : Res (DV × Mems α) :=
  if d = x.dev then .ok (x, m)
  else do
    let (t, m) ← ofDev kern junk num f x d m
    .ok (⟨⟨t.v.off, x.v.dims, x.v.strides⟩, t.dev⟩, m)

/-- tensors/TensorView.hpp:144-195 `TensorView(dims,fcode,_dev)` for the codes above one: filled on the host (with `fill`) and moved. -/
def filled (fill : Nat → α) (f : Nat) (dims : List Nat) (d : Bool) (m : Mems α) : Res (DV × Mems α) := do
  let N := asize dims
  let t : DV := ⟨View.new (m.top false) dims, false⟩
  let m := m.alloc junk false N
  let b ← fillBlock fill t.v.off N m.host
  moveTo kern junk num f t d (m.put false b)

end

end Dev

end Cnine
