import Verif.Model.RView

/-!
# Model of `SortRowsUnique` and of the split complex reference

The result tensor of `SortRowsUnique` is a fresh block at an address chosen by the caller of the model.
-/

namespace Cnine

variable {α : Type _}

/-- The loop of tensor_views/tensor1_view.hpp:121-128 from some index on. -/
def lessFrom [LT α] [DecidableLT α] (m : Buf α) (u v : RV1) : List Nat → Res Bool
  | [] => .ok false
  | i :: l => do
    let a ← m.read (u.arr + i * u.s0)
    let b ← m.read (v.arr + i * v.s0)
    if a < b then .ok true
    else if b < a then .ok false
    else lessFrom m u v l

/-- tensor_views/tensor1_view.hpp:121-128 `operator<`. -/
def viewLess [LT α] [DecidableLT α] (m : Buf α) (u v : RV1) : Res Bool := do
  Res.assrt (u.n0 = v.n0)
  lessFrom m u v (List.range u.n0)

/-- `std::set::insert` on the ordered list of the elements; an equivalent element is kept. -/
def setInsert [LT α] [DecidableLT α] (m : Buf α) (u : RV1) : List RV1 → Res (List RV1)
  | [] => .ok [u]
  | w :: l => do
    let c ← viewLess m u w
    if c then .ok (u :: w :: l)
    else do
      let d ← viewLess m w u
      if d then do
        let l ← setInsert m u l
        .ok (w :: l)
      else .ok (w :: l)

/-- Freshly allocated zeroes at `q`. -/
def allocZero [Zero α] (m : Buf α) (q n : Nat) : Buf α := fun c => if q ≤ c ∧ c < q + n then some 0 else m c

/-- tensors/TensorView.hpp constructor `TensorView(Gdims)` for two axes: row-major strides. -/
def freshRows (q k d : Nat) : RV2 := ⟨q, k, d, d, 1⟩

/-- algorithms/SortRowsUnique.hpp:32-47 on the matrix `x`; `q` is where the result is allocated. -/
def sortRowsUnique [LT α] [DecidableLT α] [Zero α] (x : RV2) (q : Nat) (m : Buf α) : Res (RV2 × Buf α) := do
  let s ← Res.forM (List.range x.n0) [] fun s i => setInsert m ⟨x.arr + x.s0 * i, x.n1, x.s1⟩ s
  let R := freshRows q s.length x.n1
  let m := allocZero m q (s.length * x.n1)
  let m ← Res.forM s.zipIdx m fun m p => RV1.assign ⟨R.arr + R.s0 * p.2, R.n1, R.s1⟩ p.1 m
  .ok (R, m)

/-- utility/PretendComplex.hpp:25-29: the two pointers. -/
structure PCx where
  realp : Nat
  imagp : Nat
deriving DecidableEq, Repr

namespace PCx

/-- utility/PretendComplex.hpp:30-32: conversion to `complex`. -/
def get (z : PCx) (m : Buf α) : Res (α × α) := do
  let a ← m.read z.realp
  let b ← m.read z.imagp
  .ok (a, b)

/-- utility/PretendComplex.hpp:33-35 `conj`. -/
def conj [Neg α] (z : PCx) (m : Buf α) : Res (α × α) := do
  let a ← m.read z.realp
  let b ← m.read z.imagp
  .ok (a, -b)

/-- utility/PretendComplex.hpp:36-40 `operator=`. -/
def set (z : PCx) (x : α × α) (m : Buf α) : Res (Buf α) := do
  let m ← m.write z.realp x.1
  m.write z.imagp x.2

/-- utility/PretendComplex.hpp:42-46 `operator+=`. -/
def addEq [Add α] (z : PCx) (x : α × α) (m : Buf α) : Res (Buf α) := do
  let a ← m.read z.realp
  let m ← m.write z.realp (a + x.1)
  let b ← m.read z.imagp
  m.write z.imagp (b + x.2)

/-- utility/PretendComplex.hpp:47-51 `operator-=`. -/
def subEq [Sub α] (z : PCx) (x : α × α) (m : Buf α) : Res (Buf α) := do
  let a ← m.read z.realp
  let m ← m.write z.realp (a - x.1)
  let b ← m.read z.imagp
  m.write z.imagp (b - x.2)

/-- utility/PretendComplex.hpp:52-56 `operator*=`: the second line reads the real part after it was
overwritten. -/
def mulEq [Add α] [Sub α] [Mul α] (z : PCx) (x : α × α) (m : Buf α) : Res (Buf α) := do
  let a ← m.read z.realp
  let b ← m.read z.imagp
  let m ← m.write z.realp (x.1 * a - x.2 * b)
  let b ← m.read z.imagp
  let a ← m.read z.realp
  m.write z.imagp (x.1 * b + x.2 * a)

/-- utility/PretendComplex.hpp:57-62 `operator/=`; `dv` is the division of `std::complex`. -/
def divEq (dv : α × α → α × α → α × α) (z : PCx) (x : α × α) (m : Buf α) : Res (Buf α) := do
  let a ← m.read z.realp
  let b ← m.read z.imagp
  let t := dv (a, b) x
  let m ← m.write z.realp t.1
  m.write z.imagp t.2

/-- utility/PretendComplex.hpp:64-66 `operator*`; the product of `std::complex` in exact arithmetic. -/
def mul [Add α] [Sub α] [Mul α] (z w : PCx) (m : Buf α) : Res (α × α) := do
  let a ← z.get m
  let b ← w.get m
  .ok (a.1 * b.1 - a.2 * b.2, a.1 * b.2 + a.2 * b.1)

end PCx
end Cnine
