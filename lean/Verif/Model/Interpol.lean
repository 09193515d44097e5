import Verif.Model.Sparse
import Mathlib.Algebra.Order.Floor.Defs
import Mathlib.Algebra.Field.Defs

/-!
# Model of the interpolation matrices

legacy/matrix/InterpolBilinear.hpp, legacy/matrix/InterpolTrilinear.hpp: sparse matrices whose row `i` gives the value
at a point as a combination of the values at the corners of the grid cell around it.

Simplifications: `float` and `double` are an ordered field with exact arithmetic, in which an `int` converts exactly;
`int` is unbounded.  The tensor `M` of points is its shape and a function.  The code computes the weights of a point
twice by the same lines (60-68 and 88-96); here they are one definition used twice.
-/

namespace Cnine

namespace Interp

variable {α : Type _} [Field α] [LinearOrder α] [FloorRing α]

/-- legacy/matrix/InterpolBilinear.hpp:57,58 (= 85,86): `CNINE_ASSRT(x>=0 && x<=n-1)`. -/
def inside (n : Int) (x : α) : Res Unit := Res.assrt (decide (0 ≤ x ∧ x ≤ ((n - 1 : Int) : α)))

/-- legacy/matrix/InterpolBilinear.hpp:88-103 (weights also 60-68): the four corners of the cell of the point, in the
order in which they are stored, with their column and weight. -/
def corners2 (n0 : Int) (x0 x1 : α) : List (Int × α) :=
  let xb0 := ⌊x0⌋
  let xb1 := ⌊x1⌋
  let d0 := x0 - xb0
  let d1 := x1 - xb1
  [(xb0 * n0 + xb1, (1 - d0) * (1 - d1)), (xb0 * n0 + (xb1 + 1), (1 - d0) * d1),
   ((xb0 + 1) * n0 + xb1, d0 * (1 - d1)), ((xb0 + 1) * n0 + (xb1 + 1), d0 * d1)]

/-- legacy/matrix/InterpolTrilinear.hpp:96-124 (weights also 60-74): the eight corners of the cell of the point. -/
def corners3 (n0 n1 : Int) (x0 x1 x2 : α) : List (Int × α) :=
  let xb0 := ⌊x0⌋
  let xb1 := ⌊x1⌋
  let xb2 := ⌊x2⌋
  let d0 := x0 - xb0
  let d1 := x1 - xb1
  let d2 := x2 - xb2
  let s0 := n0 * n1
  let s1 := n1
  let s2 := 1
  [(xb0 * s0 + xb1 * s1 + xb2 * s2, (1 - d0) * (1 - d1) * (1 - d2)),
   (xb0 * s0 + xb1 * s1 + (xb2 + 1) * s2, (1 - d0) * (1 - d1) * d2),
   (xb0 * s0 + (xb1 + 1) * s1 + xb2 * s2, (1 - d0) * d1 * (1 - d2)),
   (xb0 * s0 + (xb1 + 1) * s1 + (xb2 + 1) * s2, (1 - d0) * d1 * d2),
   ((xb0 + 1) * s0 + xb1 * s1 + xb2 * s2, d0 * (1 - d1) * (1 - d2)),
   ((xb0 + 1) * s0 + xb1 * s1 + (xb2 + 1) * s2, d0 * (1 - d1) * d2),
   ((xb0 + 1) * s0 + (xb1 + 1) * s1 + xb2 * s2, d0 * d1 * (1 - d2)),
   ((xb0 + 1) * s0 + (xb1 + 1) * s1 + (xb2 + 1) * s2, d0 * d1 * d2)]

/-- legacy/matrix/InterpolBilinear.hpp:70 (= legacy/matrix/InterpolTrilinear.hpp:76): the number of positive weights. -/
def count (cs : List (Int × α)) : Nat := (cs.filter fun e => decide (0 < e.2)).length

/-- legacy/matrix/InterpolBilinear.hpp:54-72 (= legacy/matrix/InterpolTrilinear.hpp:52-78): the lengths of the rows. -/
def lengths {ρ : Type _} (check : ρ → Res Unit) (cs : ρ → List (Int × α)) : List ρ → Res (List Int)
  | [] => .ok []
  | p :: ps => do
    check p
    let l ← lengths check cs ps
    Res.ok ((count (cs p) : Int) :: l)

/-- legacy/matrix/InterpolBilinear.hpp:99-103 (= legacy/matrix/InterpolTrilinear.hpp:116-124): the corners from the
`k`th entry of row `i` on; `t` is the sum of the weights. -/
def putRow (i : Int) (t : α) : List (Int × α) → Int → CSR α → Res (CSR α)
  | [], _, c => .ok c
  | e :: cs, k, c =>
    if 0 < e.2 then c.setAt i k e.1 (e.2 / t) >>= fun c => putRow i t cs (k + 1) c else putRow i t cs k c

/-- legacy/matrix/InterpolBilinear.hpp:82-104 (= legacy/matrix/InterpolTrilinear.hpp:88-126): the rows from `i` on. -/
def putRows {ρ : Type _} (check : ρ → Res Unit) (cs : ρ → List (Int × α)) : List ρ → Int → CSR α → Res (CSR α)
  | [], _, c => .ok c
  | p :: ps, i, c => do
    check p
    let c ← putRow i ((cs p).map fun e => e.2).sum (cs p) 0 c
    putRows check cs ps (i + 1) c

/-- legacy/matrix/InterpolBilinear.hpp:51-104 (= legacy/matrix/InterpolTrilinear.hpp:49-126): the body of the
constructors after the initialiser and the check of the shape; `m` is the number of columns. -/
def build {ρ : Type _} (m : Int) (check : ρ → Res Unit) (cs : ρ → List (Int × α)) (ps : List ρ) : Res (CSR α) := do
  let len ← lengths check cs ps
  let p ← (Pool.ofSize ps.length : Pool (CCell α)).reserve (2 * len.sum)
  let p ← CSR.layout 0 len { p with tail := 0 }
  putRows check cs ps 0 ⟨p, ps.length, m⟩

/-- legacy/matrix/InterpolBilinear.hpp:57-58 (= 85-86). -/
def check2 (n0 n1 : Int) (p : α × α) : Res Unit := do
  inside n0 p.1
  inside n1 p.2

/-- legacy/matrix/InterpolTrilinear.hpp:56-58 (= 92-94). -/
def check3 (n0 n1 n2 : Int) (p : α × α × α) : Res Unit := do
  inside n0 p.1
  inside n1 p.2.1
  inside n2 p.2.2

/-- legacy/matrix/InterpolBilinear.hpp:45-106: the constructor; `M` has `n` rows and `d` columns. -/
def bilinear (n d : Nat) (M : Nat → Nat → α) (n0 n1 : Int) : Res (CSR α) := do
  Res.assrt (decide (d = 2))
  build (n0 * n1) (check2 n0 n1) (fun p => corners2 n0 p.1 p.2) ((List.range n).map fun i => (M i 0, M i 1))

/-- legacy/matrix/InterpolTrilinear.hpp:45-128: the constructor. -/
def trilinear (n d : Nat) (M : Nat → Nat → α) (n0 n1 n2 : Int) : Res (CSR α) := do
  Res.assrt (decide (d = 3))
  build (n0 * n1) (check3 n0 n1 n2) (fun p => corners3 n0 n1 p.1 p.2.1 p.2.2)
    ((List.range n).map fun i => (M i 0, M i 1, M i 2))

/-- legacy/matrix/SphericalIpMatrix.hpp:50-62: one round of the innermost loop, the three stores into row
`(i*Ntheta+k)*Nphi+j`; `cos`, `sin`, `M_PI` and `M_2_PI` are parameters (`pi`, `twoPi`). -/
def spherePoint (cos sin : α → α) (pi twoPi : α) (Nr Ntheta Nphi N : Nat) (i j k : Nat) : Nat → α :=
  let x0 : α := ((N : α) - 1) / 2
  let r : α := x0 / Nr * ((i : α) + 1 / 2)
  let phi : α := twoPi * (j : α) / (Nphi : α)
  let theta : α := pi * (((k : α) + 1 / 2) / Ntheta)
  fun a => if a = 0 then x0 + r * cos phi * sin theta else if a = 1 then x0 + r * sin phi * sin theta else x0 + r * cos theta

/-- legacy/matrix/SphericalIpMatrix.hpp:51-62: the values of `(i,j,k)` in the order of the loops. -/
def sphereLoop (Nr Ntheta Nphi : Nat) : List (Nat × Nat × Nat) :=
  (List.range Nr).flatMap fun i => (List.range Nphi).flatMap fun j => (List.range Ntheta).map fun k => (i, j, k)

/-- legacy/matrix/SphericalIpMatrix.hpp:49-62: the tensor `X` of points; `X0` is what the memory held before. -/
def spherePoints (cos sin : α → α) (pi twoPi : α) (Nr Ntheta Nphi N : Nat) (X0 : Nat → Nat → α) : Nat → Nat → α :=
  (sphereLoop Nr Ntheta Nphi).foldl
    (fun X t => Function.update X ((t.1 * Ntheta + t.2.2) * Nphi + t.2.1) (spherePoint cos sin pi twoPi Nr Ntheta Nphi N t.1 t.2.1 t.2.2))
    X0

/-- legacy/matrix/SphericalIpMatrix.hpp:47-64: the constructor (the assignment copies the matrix). -/
def spherical (cos sin : α → α) (pi twoPi : α) (Nr Ntheta Nphi N : Nat) (X0 : Nat → Nat → α) : Res (CSR α) :=
  trilinear (Nr * Ntheta * Nphi) 3 (spherePoints cos sin pi twoPi Nr Ntheta Nphi N X0) N N N

end Interp

end Cnine
