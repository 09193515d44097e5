import Verif.Model.Iview
import Verif.Model.RView3

/-!
# Model of tensor_views/Itensor1_view.hpp and of the product in tensor_views/Itensor3_view.hpp

With the conventions of `Model/Iview`.
-/

namespace Cnine

/-- tensor_views/Itensor1_view.hpp:29-32. -/
structure IV1 where
  v : RV1
  dev : Nat
  deriving DecidableEq, Repr

namespace IV1

/-- tensor_views/Itensor1_view.hpp:73-79 `operator()(i0)`. -/
def get (x : IV1) (i : Nat) (m : Buf Int) : Res Int := if x.dev = 0 then m.read (x.v.cell i) else .ok 0

/-- tensor_views/Itensor1_view.hpp:81-86 `set(i0,x)`. -/
def setCell (r : IV1) (i : Nat) (t : Int) (m : Buf Int) : Res (Buf Int) := if r.dev = 0 then m.write (r.v.cell i) t else .ok m

/-- tensor_views/Itensor1_view.hpp:88-93 `inc(i0,x)`: writes through the pointer on the GPU, too, which is undefined. -/
def inc (r : IV1) (i : Nat) (t : Int) (m : Buf Int) : Res (Buf Int) := if r.dev = 0 then IV2.bump m (r.v.cell i) t else .ub

/-- tensor_views/Itensor1_view.hpp:116-126 `add(x)`: without both strides 1 it calls `set`. -/
def add (r x : IV1) (m : Buf Int) : Res (Buf Int) := do
  Res.assrt (x.v.n0 = r.v.n0)
  if r.dev = 0 then
    if r.v.isRegular && x.v.isRegular then
      if x.dev = 0 then IV2.addRun 1 m x.v.arr r.v.n0 r.v.arr else .ub
    else loop r.v.n0 m fun i m => do
      let t ← x.get i m
      r.setCell i t m
  else .ok m

/-- tensor_views/Itensor1_view.hpp:128-138 `add(x,c)`. -/
def addScaled (r x : IV1) (c : Int) (m : Buf Int) : Res (Buf Int) := do
  Res.assrt (x.v.n0 = r.v.n0)
  if r.dev = 0 then
    if r.v.isRegular && x.v.isRegular then
      if x.dev = 0 then IV2.addRun c m x.v.arr r.v.n0 r.v.arr else .ub
    else loop r.v.n0 m fun i m => do
      let b ← x.get i m
      let t ← IV2.fit (c * b)
      r.inc i t m
  else .ok m

/-- tensor_views/Itensor1_view.hpp:148-153 `reduce()`. -/
def reduce (x : IV1) (m : Buf Int) : Res Int :=
  if x.dev = 0 then loop x.v.n0 (0 : Int) fun i t => do
    let a ← m.read (x.v.arr + i * x.v.s0)
    IV2.fit (t + a)
  else .ok 0

end IV1

/-- tensor_views/Itensor3_view.hpp:35-38. -/
structure IV3 where
  v : RV3
  dev : Nat
  deriving DecidableEq, Repr

namespace IV3

/-- tensor_views/Itensor3_view.hpp:73-79 `operator()`. -/
def get (x : IV3) (i j k : Nat) (m : Buf Int) : Res Int := if x.dev = 0 then m.read (x.v.cell i j k) else .ok 0

/-- tensor_views/Itensor3_view.hpp:88-93 `inc`. -/
def inc (r : IV3) (i j k : Nat) (t : Int) (m : Buf Int) : Res (Buf Int) :=
  if r.dev = 0 then IV2.bump m (r.v.cell i j k) t else .ok m

/-- tensor_views/Itensor3_view.hpp:137-139: the inner loop. -/
def dot (x : IV3) (y : IV2) (c a b n : Nat) (m : Buf Int) : Res Int :=
  loop n (0 : Int) fun i t => do
    let p ← x.get c a i m
    let q ← y.get i b m
    let s ← IV2.fit (p * q)
    IV2.fit (t + s)

/-- tensor_views/Itensor3_view.hpp:125-142 `add_matmul_AA(x,y)`: the loops over rows and columns run to `n0` and `n1`. -/
def addMatmulAA (r x : IV3) (y : IV2) (m : Buf Int) : Res (Buf Int) := do
  Res.assrt (r.dev = 0)
  Res.assrt (r.v.n0 = x.v.n0)
  Res.assrt (x.v.n1 = r.v.n1)
  Res.assrt (y.v.n1 = r.v.n1)
  Res.assrt (y.v.n0 = x.v.n2)
  loop x.v.n0 m fun c m => loop r.v.n0 m fun a m => loop r.v.n1 m fun b m => do
    let t ← dot x y c a b x.v.n2 m
    r.inc c a b t m

end IV3

end Cnine
