import Verif.Model.OMap
import Verif.Model.CView

/-!
# Model of the weighted masks and of the aggregation of rows

include/Rmask1.hpp and tensor_views/Aggregator.hpp (tensor_views/TensorView_accumulator.hpp:31-40 is the same loop as
tensor_views/Aggregator.hpp:40-51).  Host memory only.  `int` is unbounded; `float` is an arbitrary algebraic structure.

Not modelled here: `prepare` (include/Rmask1.hpp:125-165, which does nothing without CUDA; see Model/GpuC.lean) and the device pointers; the inverse of the
inverse (the inverse is handed out as a const reference, of which only the lists and sizes are used); that the destructor
does not delete the inverse (a leak, no effect on results); tensor_views/Aggregator.hpp:75-80 (`CtensorView`, `CtensorD_view`).
-/

namespace Cnine

variable {α : Type}

/-- include/Rmask1.hpp:35-38: `N0`, `M0` and `lists`. -/
structure RMCore (α : Type) where
  N0 : Int
  M0 : Int
  lists : OMap Int (List (Int × α))

namespace RMCore

/-- include/Rmask1.hpp:35-38,57: the default constructor. -/
def empty : RMCore α := ⟨0, 0, []⟩

/-- include/Rmask1.hpp:109-115 `push(i,j,v)`, without the flags. -/
def push (x : RMCore α) (i j : Int) (v : α) : RMCore α :=
  ⟨if i ≥ x.N0 then i + 1 else x.N0, if j ≥ x.M0 then j + 1 else x.M0,
    OMap.set i (((OMap.find? i x.lists).getD []) ++ [(j, v)]) x.lists⟩

/-- include/Rmask1.hpp:171-180: the new inverse of `make_inverse`. -/
def inverted (x : RMCore α) : RMCore α :=
  x.lists.foldl (fun y p => p.2.foldl (fun y q => y.push q.1 p.1 q.2) y) empty

/-- include/Rmask1.hpp:95-103 `matrix(M)`. -/
def matrix [Zero α] [DecidableEq α] (M : RV2) (m : Buf α) : Res (RMCore α) :=
  loop M.n0 empty fun i R => loop M.n1 R fun j R => do
    let a ← m.read (M.cell i j)
    if a ≠ 0 then do
      let b ← m.read (M.cell i j)
      .ok (R.push i j b)
    else .ok R

end RMCore

/-- include/Rmask1.hpp:35-45: a mask with its cached inverse. -/
structure RMask (α : Type) where
  core : RMCore α
  inverse : Option (RMCore α)
  invCurrent : Bool

namespace RMask

/-- include/Rmask1.hpp:57 the default constructor. -/
def empty : RMask α := ⟨RMCore.empty, none, false⟩

/-- include/Rmask1.hpp:109-115 `push(i,j,v)`. -/
def push (x : RMask α) (i j : Int) (v : α) : RMask α := ⟨x.core.push i j v, x.inverse, false⟩

/-- include/Rmask1.hpp:117-120 `inv()` with 171-180 `make_inverse`: the mask afterwards and the inverse. -/
def inv (x : RMask α) : RMask α × RMCore α :=
  match x.inverse, x.invCurrent with
  | some y, true => (x, y)
  | _, _ => (⟨x.core, some x.core.inverted, true⟩, x.core.inverted)

/-- include/Rmask1.hpp:68-70: the copy constructor. -/
def copy (x : RMask α) : RMask α := ⟨⟨0, 0, x.core.lists⟩, none, false⟩

/-- include/Rmask1.hpp:72-78: the move constructor; the new mask and what is left of the old one (a moved-from `std::map` is taken to
be empty). -/
def move (x : RMask α) : RMask α × RMask α :=
  (⟨⟨0, 0, x.core.lists⟩, none, false⟩, ⟨⟨x.core.N0, x.core.M0, []⟩, x.inverse, x.invCurrent⟩)

end RMask

/-- tensor_views/Ctensor1_view.hpp:98-103 `add(x,c)` with a real `c`. -/
def CV1.addS [Add α] [Mul α] (r x : CV1) (c : α) (m : Buf α) : Res (Buf α) := do
  Res.assrt (r.n0 = x.n0)
  loop r.n0 m fun i m => do
    let a ← x.get i m
    r.inc i ⟨a.re * c, a.im * c⟩ m

/-- tensor_views/Ctensor2_view.hpp:329-331 `slice0(i)` for any integer: `.ub` if a pointer is before the start of the memory. -/
def CV2.slice0Z (v : CV2) (i : Int) : Res CV1 :=
  if (v.arr : Int) + i * v.s0 < 0 ∨ (v.arrc : Int) + i * v.s0 < 0 then .ub
  else .ok ⟨((v.arr : Int) + i * v.s0).toNat, ((v.arrc : Int) + i * v.s0).toNat, v.n1, v.s1⟩

/-- tensor_views/Aggregator.hpp:44-49: one row of the mask. -/
def aggRow [Add α] [Mul α] (r x : CV2) (m : Buf α) (p : Int × List (Int × α)) : Res (Buf α) := do
  let t ← r.slice0Z p.1
  Res.forM p.2 m fun m q => do
    let y ← x.slice0Z q.1
    t.addS y q.2 m

/-- tensor_views/Aggregator.hpp:40-51: the constructor for matrices. -/
def aggregate2 [Add α] [Mul α] (r x : CV2) (mask : RMCore α) (m : Buf α) : Res (Buf α) := Res.forM mask.lists m (aggRow r x)

/-- tensor_views/Aggregator.hpp:66-68: three axes. -/
def aggregate3 [Add α] [Mul α] (r x : CV3) (mask : RMCore α) (m : Buf α) : Res (Buf α) := aggregate2 r.fuse12 x.fuse12 mask m

/-- tensor_views/Aggregator.hpp:71-73: four axes. -/
def aggregate4 [Add α] [Mul α] (r x : CV4) (mask : RMCore α) (m : Buf α) : Res (Buf α) := aggregate3 r.fuse23 x.fuse23 mask m

end Cnine
