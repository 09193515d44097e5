import Verif.Model.RView

/-!
# Model of the strided views with three axes

tensor_views/Rtensor3_view.hpp, CPU branches (`dev==0`), as for the views with one and two axes in `Model/RView.lean`.
-/

namespace Cnine

variable {α : Type _}

/-- tensor_views/Rtensor3_view.hpp:46-49 `arr`, `n0`, `n1`, `n2`, `s0`, `s1`, `s2`. -/
structure RV3 where
  arr : Nat
  n0 : Nat
  n1 : Nat
  n2 : Nat
  s0 : Nat
  s1 : Nat
  s2 : Nat
deriving DecidableEq, Repr

namespace RV3

/-- tensor_views/Rtensor3_view.hpp:92-98 `operator()(i0,i1,i2)`: the cell `arr[s0*i0+s1*i1+s2*i2]`. -/
def cell (v : RV3) (i j k : Nat) : Nat := v.arr + (v.s0 * i + v.s1 * j + v.s2 * k)

/-- tensor_views/Rtensor3_view.hpp:85-90 `is_regular`. -/
def isRegular (v : RV3) : Bool := v.s2 = 1 && v.s1 = v.n2 && v.s0 = v.n1 * v.s1

/-- tensor_views/Rtensor3_view.hpp:122-128 `set(v)`. -/
def fill (r : RV3) (v : α) (m : Buf α) : Res (Buf α) :=
  loop r.n0 m fun i m => loop r.n1 m fun j m => loop r.n2 m fun k m => m.write (r.arr + (i * r.s0 + j * r.s1 + k * r.s2)) v

/-- The test of tensor_views/Rtensor3_view.hpp:132, 147, 158. -/
def fast (r x : RV3) : Bool := x.n0 = r.n0 && x.n1 = r.n1 && x.n2 = r.n2 && r.isRegular && x.isRegular

/-- tensor_views/Rtensor3_view.hpp:130-139 `set(x)`.  The sizes are not compared. -/
def set (r x : RV3) (m : Buf α) : Res (Buf α) :=
  if r.fast x then stdCopy m x.arr (r.n0 * r.n1 * r.n2) r.arr
  else loop x.n0 m fun i m => loop x.n1 m fun j m => loop x.n2 m fun k m => do
    let v ← m.read (x.cell i j k)
    m.write (r.cell i j k) v

/-- tensor_views/Rtensor3_view.hpp:145-154 `add(x)` (and 167-169 `operator+=`).  The sizes are not compared. -/
def add [Add α] (r x : RV3) (m : Buf α) : Res (Buf α) :=
  if r.fast x then stdAdd (· + ·) m x.arr (r.n0 * r.n1 * r.n2) r.arr
  else loop x.n0 m fun i m => loop x.n1 m fun j m => loop x.n2 m fun k m => do
    let v ← m.read (x.cell i j k)
    incCell m (r.cell i j k) v

/-- tensor_views/Rtensor3_view.hpp:156-165 `add(x,c)`: line 159 calls `stdadd` without `c`. -/
def addScaled [Add α] [Mul α] (r x : RV3) (c : α) (m : Buf α) : Res (Buf α) :=
  if r.fast x then stdAdd (· + ·) m x.arr (r.n0 * r.n1 * r.n2) r.arr
  else loop x.n0 m fun i m => loop x.n1 m fun j m => loop x.n2 m fun k m => do
    let v ← m.read (x.cell i j k)
    incCell m (r.cell i j k) (v * c)

/-- tensor_views/Rtensor3_view.hpp:171-189 `add_matmul_AA(x,y)`: `a` runs to `n0` and `b` to `n1`. -/
def addMatmulAA [Zero α] [Add α] [Mul α] (r x : RV3) (y : RV2) (m : Buf α) : Res (Buf α) := do
  Res.assrt (r.n0 = x.n0)
  Res.assrt (x.n1 = r.n1)
  Res.assrt (y.n1 = r.n1)
  Res.assrt (y.n0 = x.n2)
  loop x.n0 m fun c m => loop r.n0 m fun a m => loop r.n1 m fun b m => do
    let t ← RV2.dotLoop x.n2 (fun i => x.cell c a i) (fun i => y.cell i b) m
    incCell m (r.cell c a b) t

/-- tensor_views/Rtensor3_view.hpp:443-447 `slice0(i)`. -/
def slice0 (v : RV3) (i : Nat) : RV2 := ⟨v.arr + i * v.s0, v.n1, v.n2, v.s1, v.s2⟩

/-- tensor_views/Rtensor3_view.hpp:449-453 `slice1(i)`. -/
def slice1 (v : RV3) (i : Nat) : RV2 := ⟨v.arr + i * v.s1, v.n0, v.n2, v.s0, v.s2⟩

/-- tensor_views/Rtensor3_view.hpp:455-459 `slice2(i)`. -/
def slice2 (v : RV3) (i : Nat) : RV2 := ⟨v.arr + i * v.s2, v.n0, v.n1, v.s0, v.s1⟩

/-- tensor_views/Rtensor3_view.hpp:439-441 `transp01()`. -/
def transp01 (v : RV3) : RV3 := ⟨v.arr, v.n1, v.n0, v.n2, v.s1, v.s0, v.s2⟩

/-- tensor_views/Rtensor3_view.hpp:424-427 `diag01()`. -/
def diag01 (v : RV3) : Res RV2 := do
  Res.assrt (v.n0 = v.n1)
  .ok ⟨v.arr, v.n0, v.n2, v.s0 + v.s1, v.s2⟩

/-- tensor_views/Rtensor3_view.hpp:429-432 `diag02()`. -/
def diag02 (v : RV3) : Res RV2 := do
  Res.assrt (v.n0 = v.n2)
  .ok ⟨v.arr, v.n0, v.n1, v.s0 + v.s2, v.s1⟩

/-- tensor_views/Rtensor3_view.hpp:434-437 `diag12()`. -/
def diag12 (v : RV3) : Res RV2 := do
  Res.assrt (v.n1 = v.n2)
  .ok ⟨v.arr, v.n0, v.n1, v.s0, v.s1 + v.s2⟩

/-- tensor_views/Rtensor3_view.hpp:461-464 `fuse01()`. -/
def fuse01 (v : RV3) : Res RV2 := do
  Res.assrt v.isRegular
  .ok ⟨v.arr, v.n0 * v.n1, v.n2, v.s1, v.s2⟩

/-- tensor_views/Rtensor3_view.hpp:466-469 `fuse12()`. -/
def fuse12 (v : RV3) : Res RV2 := do
  Res.assrt v.isRegular
  .ok ⟨v.arr, v.n0, v.n1 * v.n2, v.s0, v.s2⟩

/-- tensor_views/Rtensor3_view.hpp:471-480 `block(i0,i1,i2,m0,m1,m2)`, sizes given. -/
def block (v : RV3) (i0 i1 i2 m0 m1 m2 : Nat) : RV3 :=
  ⟨v.arr + i0 * v.s0 + i1 * v.s1 + i2 * v.s2, m0, m1, m2, v.s0, v.s1, v.s2⟩

/-- tensor_views/Rtensor3_view.hpp:515-518 `split0(x,i,j)`. -/
def split0 (x : RV2) (i j : Nat) : Res RV3 := do
  Res.assrt (i * j = x.n0)
  .ok ⟨x.arr, i, j, x.n1, x.s0 * j, x.s0, x.s1⟩

/-- tensor_views/Rtensor3_view.hpp:520-523 `split1(x,i,j)`. -/
def split1 (x : RV2) (i j : Nat) : Res RV3 := do
  Res.assrt (i * j = x.n1)
  .ok ⟨x.arr, x.n0, i, j, x.s0, x.s1 * j, x.s1⟩

/-- tensor_views/Rtensor3_view.hpp:525-527 `repeat0(x,n)`. -/
def repeat0 (x : RV2) (n : Nat) : RV3 := ⟨x.arr, n, x.n0, x.n1, 0, x.s0, x.s1⟩

/-- tensor_views/Rtensor3_view.hpp:529-531 `repeat1(x,n)`. -/
def repeat1 (x : RV2) (n : Nat) : RV3 := ⟨x.arr, x.n0, n, x.n1, x.s0, 0, x.s1⟩

/-- tensor_views/Rtensor3_view.hpp:533-535 `repeat2(x,n)`. -/
def repeat2 (x : RV2) (n : Nat) : RV3 := ⟨x.arr, x.n0, x.n1, n, x.s0, x.s1, 0⟩

/-- tensor_views/Rtensor3_view.hpp:191-203 `add_mprod(x,y)`. -/
def addMprod [Zero α] [Add α] [Mul α] (r : RV3) (x : RV2) (y : RV3) (m : Buf α) : Res (Buf α) := do
  Res.assrt (r.n0 = y.n0)
  Res.assrt (r.n1 = x.n0)
  Res.assrt (r.n2 = y.n2)
  Res.assrt (x.n1 = y.n1)
  loop r.n0 m fun b m => (r.slice0 b).addMatmulAA x (y.slice0 b) m

/-- tensor_views/Rtensor3_view.hpp:227-238 `sum0_into(r)` and 240-251 `avg0_into(r)`; `dv t n` stands for `t` or for `t/n`. -/
def sum0Into [Zero α] [Add α] (dv : α → Nat → α) (v : RV3) (r : RV2) (m : Buf α) : Res (Buf α) := do
  Res.assrt (r.n0 = v.n1)
  Res.assrt (r.n1 = v.n2)
  loop v.n1 m fun j m => loop v.n2 m fun k m => do
    let t ← RV2.sumLoop v.n0 (fun i => v.cell i j k) m
    incCell m (r.cell j k) (dv t v.n0)

/-- tensor_views/Rtensor3_view.hpp:253-268 `sum1_into(r)` and 270-281 `avg1_into(r)`. -/
def sum1Into [Zero α] [Add α] (dv : α → Nat → α) (v : RV3) (r : RV2) (m : Buf α) : Res (Buf α) := do
  Res.assrt (r.n0 = v.n0)
  Res.assrt (r.n1 = v.n2)
  loop v.n0 m fun i m => loop v.n2 m fun k m => do
    let t ← RV2.sumLoop v.n1 (fun j => v.cell i j k) m
    incCell m (r.cell i k) (dv t v.n1)

/-- tensor_views/Rtensor3_view.hpp:283-294 `sum2_into(r)` and 296-307 `avg2_into(r)`. -/
def sum2Into [Zero α] [Add α] (dv : α → Nat → α) (v : RV3) (r : RV2) (m : Buf α) : Res (Buf α) := do
  Res.assrt (r.n0 = v.n0)
  Res.assrt (r.n1 = v.n1)
  loop v.n0 m fun i m => loop v.n1 m fun j m => do
    let t ← RV2.sumLoop v.n2 (fun k => v.cell i j k) m
    incCell m (r.cell i j) (dv t v.n2)

/-- tensor_views/Rtensor3_view.hpp:309-319 `sum01_into(r)` and 321-331 `avg01_into(r)`. -/
def sum01Into [Zero α] [Add α] (dv : α → Nat → α) (v : RV3) (r : RV1) (m : Buf α) : Res (Buf α) := do
  Res.assrt (r.n0 = v.n2)
  loop v.n2 m fun k m => do
    let t ← loop v.n0 (0 : α) fun i t => loop v.n1 t fun j t => do
      let a ← m.read (v.cell i j k)
      .ok (t + a)
    incCell m (r.cell k) (dv (dv t v.n0) v.n1)

/-- tensor_views/Rtensor3_view.hpp:353-355 `reduce0_destructively()`. -/
def reduce0 [Zero α] [Add α] (v : RV3) (m : Buf α) : Res (Buf α) := do
  let w ← v.fuse12
  w.reduce0 m

/-- tensor_views/Rtensor3_view.hpp:357-371 `reduce1_destructively()`. -/
def reduce1 [Zero α] [Add α] (v : RV3) (m : Buf α) : Res (Buf α) :=
  if v.isRegular then loop v.n0 m fun i m => (v.slice0 i).reduce0 m
  else loop v.n0 m fun i m => loop v.n2 m fun k m => do
    let t ← RV2.sumLoop v.n1 (fun j => v.cell i j k) m
    m.write (v.arr + (v.s0 * i + v.s2 * k)) t

/-- tensor_views/Rtensor3_view.hpp:393-395 `reduce2_destructively()`. -/
def reduce2 [Zero α] [Add α] (v : RV3) (m : Buf α) : Res (Buf α) := do
  let w ← v.fuse01
  w.reduce1 m

/-- tensor_views/Rtensor3_view.hpp:337-340 `reduce0_destructively_into(r)`. -/
def reduce0Into [Zero α] [Add α] (v : RV3) (r : RV2) (m : Buf α) : Res (Buf α) := do
  let m ← v.reduce0 m
  r.add (v.slice0 0) m

/-- tensor_views/Rtensor3_view.hpp:342-345 `reduce1_destructively_into(r)`. -/
def reduce1Into [Zero α] [Add α] (v : RV3) (r : RV2) (m : Buf α) : Res (Buf α) := do
  let m ← v.reduce1 m
  r.add (v.slice1 0) m

/-- tensor_views/Rtensor3_view.hpp:347-350 `reduce2_destructively_into(r)`. -/
def reduce2Into [Zero α] [Add α] (v : RV3) (r : RV2) (m : Buf α) : Res (Buf α) := do
  let m ← v.reduce2 m
  r.add (v.slice2 0) m

/-- tensor_views/Rtensor3_view.hpp:401-405 `broadcast0(x)`. -/
def broadcast0 (v : RV3) (x : RV2) (m : Buf α) : Res (Buf α) := do
  Res.assrt (x.n0 = v.n1)
  Res.assrt (x.n1 = v.n2)
  let w ← v.fuse12
  w.broadcast0 x.fuse01 m

/-- tensor_views/Rtensor3_view.hpp:407-412 `broadcast1(x)`. -/
def broadcast1 (v : RV3) (x : RV2) (m : Buf α) : Res (Buf α) := do
  Res.assrt (x.n0 = v.n0)
  Res.assrt (x.n1 = v.n2)
  loop v.n0 m fun i m => (v.slice0 i).broadcast0 (x.slice0 i) m

/-- tensor_views/Rtensor3_view.hpp:414-418 `broadcast2(x)`. -/
def broadcast2 (v : RV3) (x : RV2) (m : Buf α) : Res (Buf α) := do
  Res.assrt (x.n0 = v.n0)
  Res.assrt (x.n1 = v.n1)
  let w ← v.fuse01
  w.broadcast1 x.fuse01 m

end RV3
end Cnine
