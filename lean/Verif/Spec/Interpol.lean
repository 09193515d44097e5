import Mathlib.Algebra.Order.Ring.Abs
import Mathlib.Algebra.Field.Defs

/-!
# What interpolation is meant to be

The samples of a function on a grid of `n0×n1` (or `n0×n1×n2`) points form a row-major vector.  An interpolation matrix,
given as its entries (row, column, weight), turns it into the values at other points.  Linear interpolation in each
variable gives every function that is affine in each variable its own values.
-/

namespace Cnine.InterpSpec

variable {α : Type _} [Field α]

/-- A function of two variables, affine in each. -/
def affine2 (p q r s a b : α) : α := p + q * a + r * b + s * (a * b)

/-- A function of three variables, affine in each. -/
def affine3 (p q r s u v w z a b c : α) : α :=
  p + q * a + r * b + s * c + u * (a * b) + v * (a * c) + w * (b * c) + z * (a * b * c)

/-- Row `i` of the matrix times the samples of `f` on a grid with `n1` columns. -/
def value2 (es : List (Int × Int × α)) (i n1 : Int) (f : α → α → α) : α :=
  ((es.filter fun e => e.1 = i).map fun e => e.2.2 * f ((e.2.1 / n1 : Int) : α) ((e.2.1 % n1 : Int) : α)).sum

/-- Row `i` of the matrix times the samples of `f` on a grid whose last two sides are `n1` and `n2`. -/
def value3 (es : List (Int × Int × α)) (i n1 n2 : Int) (f : α → α → α → α) : α :=
  ((es.filter fun e => e.1 = i).map fun e =>
    e.2.2 * f ((e.2.1 / n2 / n1 : Int) : α) ((e.2.1 / n2 % n1 : Int) : α) ((e.2.1 % n2 : Int) : α)).sum

variable [LinearOrder α]

/-- The matrix interpolates at the `n` points `M` on an `n0×n1` grid: its entries have a row and a column of the matrix,
positive weights, belong to samples closer than one step in each direction, and give functions affine in each variable
their own values. -/
structure Interpolates2 (es : List (Int × Int × α)) (n : Nat) (M : Nat → Nat → α) (n0 n1 : Nat) : Prop where
  row : ∀ e ∈ es, 0 ≤ e.1 ∧ e.1 < n
  column : ∀ e ∈ es, 0 ≤ e.2.1 ∧ e.2.1 < (n0 * n1 : Nat)
  positive : ∀ e ∈ es, 0 < e.2.2
  near : ∀ e ∈ es, |M e.1.toNat 0 - ((e.2.1 / n1 : Int) : α)| < 1 ∧ |M e.1.toNat 1 - ((e.2.1 % n1 : Int) : α)| < 1
  exact : ∀ i < n, ∀ p q r s, value2 es i n1 (affine2 p q r s) = affine2 p q r s (M i 0) (M i 1)

/-- The same in three dimensions. -/
structure Interpolates3 (es : List (Int × Int × α)) (n : Nat) (M : Nat → Nat → α) (n0 n1 n2 : Nat) : Prop where
  row : ∀ e ∈ es, 0 ≤ e.1 ∧ e.1 < n
  column : ∀ e ∈ es, 0 ≤ e.2.1 ∧ e.2.1 < (n0 * n1 * n2 : Nat)
  positive : ∀ e ∈ es, 0 < e.2.2
  near : ∀ e ∈ es, |M e.1.toNat 0 - ((e.2.1 / n2 / n1 : Int) : α)| < 1 ∧ |M e.1.toNat 1 - ((e.2.1 / n2 % n1 : Int) : α)| < 1 ∧
    |M e.1.toNat 2 - ((e.2.1 % n2 : Int) : α)| < 1
  exact : ∀ i < n, ∀ p q r s u v w z, value3 es i n1 n2 (affine3 p q r s u v w z) =
    affine3 p q r s u v w z (M i 0) (M i 1) (M i 2)

/-- The point lies in the box with sides `0 … n0-1` and so on. -/
def inBox (ns : List Int) (x : Nat → α) : Prop := ∀ (a : Nat) (n : Int), ns[a]? = some n → 0 ≤ x a ∧ x a ≤ n - 1

end Cnine.InterpSpec
