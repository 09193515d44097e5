import Verif.Model.GpuConv
import Verif.Spec.Gpu
import Mathlib.Algebra.BigOperators.Group.Finset.Basic

/-!
# Convolutions, as sums
-/

namespace Cnine

open Finset

variable {α ι κ : Type}

/-- The entries of a view with four axes. -/
def RV4.dom (v : RV4) (q : Nat × Nat × Nat × Nat) : Prop := q.1 < v.n0 ∧ q.2.1 < v.n1 ∧ q.2.2.1 < v.n2 ∧ q.2.2.2 < v.n3

/-- Where an entry lies. -/
def RV4.cell (v : RV4) (q : Nat × Nat × Nat × Nat) : Nat := v.arr + (v.s0 * q.1 + v.s1 * q.2.1 + v.s2 * q.2.2.1 + v.s3 * q.2.2.2)

/-- The entries of a view with five axes. -/
def RV5.dom (v : RV5) (q : Nat × Nat × Nat × Nat × Nat) : Prop := q.1 < v.n0 ∧ q.2.1 < v.n1 ∧ q.2.2.1 < v.n2 ∧ q.2.2.2.1 < v.n3 ∧ q.2.2.2.2 < v.n4

/-- Where an entry lies. -/
def RV5.cell (v : RV5) (q : Nat × Nat × Nat × Nat × Nat) : Nat := v.arr + (v.s0 * q.1 + v.s1 * q.2.1 + v.s2 * q.2.2.1 + v.s3 * q.2.2.2.1 + v.s4 * q.2.2.2.2)

/-- The entries of a view with six axes. -/
def RV6.dom (v : RV6) (q : Nat × Nat × Nat × Nat × Nat × Nat) : Prop :=
  q.1 < v.n0 ∧ q.2.1 < v.n1 ∧ q.2.2.1 < v.n2 ∧ q.2.2.2.1 < v.n3 ∧ q.2.2.2.2.1 < v.n4 ∧ q.2.2.2.2.2 < v.n5

/-- Where an entry lies. -/
def RV6.cell (v : RV6) (q : Nat × Nat × Nat × Nat × Nat × Nat) : Nat :=
  v.arr + (v.s0 * q.1 + v.s1 * q.2.1 + v.s2 * q.2.2.1 + v.s3 * q.2.2.2.1 + v.s4 * q.2.2.2.2.1 + v.s5 * q.2.2.2.2.2)

namespace Gpu

/-- `v` holds the values `a` in cells of their own. -/
structure Owns (m : Buf α) (D : ι → Prop) (c : ι → Nat) (a : ι → α) : Prop where
  inj : ∀ i j, D i → D j → c i = c j → i = j
  val : ∀ i, D i → m (c i) = some (a i)

/-- A view that is read: its entries hold the values `b`, and none of them lies in a cell of the first one. -/
structure Reads (m : Buf α) (D : ι → Prop) (c : ι → Nat) (E : κ → Prop) (d : κ → Nat) (b : κ → α) : Prop where
  apart : ∀ i j, D i → E j → c i ≠ d j
  val : ∀ j, E j → m (d j) = some (b j)

/-- The sum of `f j p` over the positions `j` of a filter and `p` of an input that meet at the position `i` of the output: `i + j = p + pad`. -/
def slide [AddCommMonoid α] (pad : Int) (nj np i : Nat) (f : Nat → Nat → α) : α := ∑ j ∈ range nj, ∑ p ∈ range np, if (i : Int) + j = p + pad then f j p else 0

end Gpu

end Cnine
