import Mathlib.Algebra.BigOperators.Group.List.Basic

/-!
# What a list of weighted pairs means

A mask is filled by pushes `(i,j,v)`: "row `i` of the result receives `v` times row `j` of the argument".
-/

namespace Cnine.MaskSpec

variable {α : Type}

/-- What is pushed for row `i`, in the order of the pushes. -/
def rowOf (l : List (Int × Int × α)) (i : Int) : List (Int × α) := (l.filter fun e => decide (e.1 = i)).map Prod.snd

/-- The weights pushed for the pair `(i,j)`, in the order of the pushes. -/
def valuesAt (l : List (Int × Int × α)) (i j : Int) : List α :=
  (l.filter fun e => decide (e.1 = i ∧ e.2.1 = j)).map fun e => e.2.2

/-- Entry `(i,j)` of the matrix a list of pushes stands for. -/
def entry [AddCommMonoid α] (l : List (Int × Int × α)) (i j : Int) : α := (valuesAt l i j).sum

/-- `n` is the least natural number above all of `l`. -/
def LeastAbove (n : Int) (l : List Int) : Prop := 0 ≤ n ∧ (∀ a ∈ l, a < n) ∧ (n = 0 ∨ n - 1 ∈ l)

/-- A use of a mask: a push, or a call of `inv()`. -/
inductive Use (α : Type) where
  | push (i j : Int) (v : α)
  | inv

/-- The pushes among the uses. -/
def pushes : List (Use α) → List (Int × Int × α)
  | [] => []
  | .push i j v :: l => (i, j, v) :: pushes l
  | .inv :: l => pushes l

/-- The nonzero entries of row `i` of a matrix of `n` columns, as (column, value), in the order of the columns. -/
def nonzeros [Zero α] [DecidableEq α] (X : Nat → Nat → α) (n i : Nat) : List (Int × α) :=
  ((List.range n).filter fun j => decide (X i j ≠ 0)).map fun j => (Int.ofNat j, X i j)

end Cnine.MaskSpec
