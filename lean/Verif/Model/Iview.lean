import Verif.Model.RView

/-!
# Model of tensor_views/Itensor2_view.hpp

Matrix views of 32-bit integers.  The shape is that of `RV2` (`Model/RView`), with the device; strides and sizes are natural
numbers.  The sums and products are computed as `int`: a result that does not fit is undefined.  The memory `m` is that of the side
the target lies on; a copy between a host pointer and a GPU pointer in one of the fast branches is undefined, while `operator()` of a
view on the GPU returns 0.  `CNINE_CPUONLY` ends the program for views on the GPU, which is `throw` here.  The copy between GPU
pointers is that of a build with CUDA.
-/

namespace Cnine

/-- tensor_views/Itensor2_view.hpp:31-34. -/
structure IV2 where
  v : RV2
  dev : Nat
  deriving DecidableEq, Repr

namespace IV2

/-- The result of an addition or multiplication of `int`s (tensor_views/Itensor2_view.hpp:101, 153, 170). -/
def fit (x : Int) : Res Int := if -2147483648 ≤ x ∧ x ≤ 2147483647 then .ok x else .ub

/-- tensor_views/Itensor2_view.hpp:83-89 `operator()(i0,i1)`. -/
def get (x : IV2) (i j : Nat) (m : Buf Int) : Res Int := if x.dev = 0 then m.read (x.v.cell i j) else .ok 0

/-- tensor_views/Itensor2_view.hpp:91-96 `set(i0,i1,x)`. -/
def setCell (r : IV2) (i j : Nat) (t : Int) (m : Buf Int) : Res (Buf Int) := if r.dev = 0 then m.write (r.v.cell i j) t else .ok m

/-- `arr[c]+=t` for `int`s (tensor_views/Itensor2_view.hpp:101; include/Cnine_base_helpers.hpp:43-55). -/
def bump (m : Buf Int) (c : Nat) (t : Int) : Res (Buf Int) := do
  let a ← m.read c
  let s ← fit (a + t)
  m.write c s

/-- tensor_views/Itensor2_view.hpp:98-103 `inc(i0,i1,x)`. -/
def inc (r : IV2) (i j : Nat) (t : Int) (m : Buf Int) : Res (Buf Int) := if r.dev = 0 then bump m (r.v.cell i j) t else .ok m

/-- tensor_views/Itensor2_view.hpp:120-122: the fast branch of `set(x)`. -/
def setFast (r x : IV2) (m : Buf Int) : Res (Buf Int) :=
  if r.dev = 0 ∨ r.dev = 1 then
    if x.dev = r.dev then stdCopy m x.v.arr (r.v.n0 * r.v.n1) r.v.arr else .ub
  else .ok m

/-- tensor_views/Itensor2_view.hpp:124: the loops of `set(x)`. -/
def setLoops (r x : IV2) (m : Buf Int) : Res (Buf Int) :=
  if r.dev = 0 then loop x.v.n0 m fun i m => loop x.v.n1 m fun j m => do
    let t ← x.get i j m
    r.setCell i j t m
  else .ok m

/-- tensor_views/Itensor2_view.hpp:116-127 `set(x)`. -/
def set (r x : IV2) (m : Buf Int) : Res (Buf Int) := do
  Res.assrt (x.v.n0 = r.v.n0)
  Res.assrt (x.v.n1 = r.v.n1)
  if r.v.isRegular && x.v.isRegular then r.setFast x m else r.setLoops x m

/-- include/Cnine_base_helpers.hpp:43-55 `stdadd<int>`, with the factor `c`; without it `c` is 1. -/
def addRun (c : Int) (m : Buf Int) (src n dst : Nat) : Res (Buf Int) :=
  loop n m fun i m => do
    let b ← m.read (src + i)
    let t ← fit (c * b)
    bump m (dst + i) t

/-- tensor_views/Itensor2_view.hpp:138, 153: the loops of `add(x)` and `add(x,c)`. -/
def addLoops (r x : IV2) (c : Int) (m : Buf Int) : Res (Buf Int) :=
  loop x.v.n0 m fun i m => loop x.v.n1 m fun j m => do
    let b ← x.get i j m
    let t ← fit (c * b)
    r.inc i j t m

/-- tensor_views/Itensor2_view.hpp:134-140, 149-155 on the host. -/
def addHost (r x : IV2) (c : Int) (m : Buf Int) : Res (Buf Int) :=
  if r.v.isRegular && x.v.isRegular then
    if x.dev = 0 then addRun c m x.v.arr (r.v.n0 * r.v.s0) r.v.arr else .ub
  else addLoops r x c m

/-- tensor_views/Itensor2_view.hpp:130-141 `add(x)`: the lines for the GPU are commented out. -/
def add (r x : IV2) (m : Buf Int) : Res (Buf Int) := do
  Res.assrt (x.v.n0 = r.v.n0)
  Res.assrt (x.v.n1 = r.v.n1)
  if r.dev = 0 then addHost r x 1 m else .ok m

/-- tensor_views/Itensor2_view.hpp:144-156 `add(x,c)`. -/
def addScaled (r x : IV2) (c : Int) (m : Buf Int) : Res (Buf Int) := do
  Res.assrt (r.dev = 0)
  Res.assrt (x.v.n0 = r.v.n0)
  Res.assrt (x.v.n1 = r.v.n1)
  addHost r x c m

/-- tensor_views/Itensor2_view.hpp:168-170: the inner loop of the product. -/
def dot (x y : IV2) (a b n : Nat) (m : Buf Int) : Res Int :=
  loop n (0 : Int) fun i t => do
    let p ← x.get a i m
    let q ← y.get i b m
    let s ← fit (p * q)
    fit (t + s)

/-- tensor_views/Itensor2_view.hpp:159-173 `add_matmul_AA(x,y)`. -/
def addMatmulAA (r x y : IV2) (m : Buf Int) : Res (Buf Int) := do
  Res.assrt (r.dev = 0)
  Res.assrt (x.v.n0 = r.v.n0)
  Res.assrt (y.v.n1 = r.v.n1)
  Res.assrt (y.v.n0 = x.v.n1)
  loop r.v.n0 m fun a m => loop r.v.n1 m fun b m => do
    let t ← dot x y a b x.v.n1 m
    r.inc a b t m

/-- tensor_views/Itensor2_view.hpp:105-110, the size of a block along one axis in the `const` overload: any negative number means
the rest. -/
def restConst (n i : Nat) (k : Int) : Int := if k < 0 then (n : Int) - i else k

/-- tensor_views/Itensor2_view.hpp:303-311, the same in the other overload: only -1 means the rest. -/
def rest (n i : Nat) (k : Int) : Int := if k = -1 then (n : Int) - i else k

end IV2

end Cnine
