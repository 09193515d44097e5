import Mathlib.Algebra.BigOperators.Group.Finset.Basic
import Mathlib.Algebra.Order.Field.Basic
import Mathlib.Logic.Relation
import Verif.Spec.Elem

/-! # Specification vocabulary for column spaces and connected components -/

namespace Cnine
namespace Space

open Finset

variable {α : Type}

/-- The inner product of two vectors of length `n`. -/
def ip [AddCommMonoid α] [Mul α] (n : Nat) (f g : Nat → α) : α := ∑ k ∈ range n, f k * g k

/-- The combination of the first `j` vectors of `B`. -/
def comb [AddCommMonoid α] [Mul α] (j : Nat) (c : Nat → α) (B : Nat → Nat → α) (k : Nat) : α := ∑ i ∈ range j, c i * B i k

/-- The first `j` vectors are of length one and orthogonal to each other. -/
def Ortho [CommRing α] (n j : Nat) (B : Nat → Nat → α) : Prop := ∀ a b, a < j → b < j → ip n (B a) (B b) = if a = b then 1 else 0

/-- The matrix view shows the columns `F`. -/
def Cols (m : Buf α) (v : View) (n d : Nat) (F : Nat → Nat → α) : Prop :=
  ∀ k i, k < n → i < d → m (v.cell [k, i]) = some (F i k)

/-- `root` takes square roots. -/
def Root [Field α] [LinearOrder α] (root : α → α) : Prop := ∀ a, 0 ≤ a → 0 ≤ root a ∧ root a * root a = a

/-- A matrix view `M` of `n` rows and `d` columns `X`, different entries in different cells, with `n * d` free cells at `q`. -/
structure Input (m : Buf α) (M : View) (n d q : Nat) (X : Nat → Nat → α) : Prop where
  wf : M.WF
  dims : M.dims = [n, d]
  distinct : M.Distinct
  outside : ∀ ix, InRange ix M.dims → M.cell ix < q ∨ q + n * d ≤ M.cell ix
  shows : Cols m M n d X

/-- One step along `cond` between nodes of the list. -/
def Edge (cond : Nat → Nat → Bool) (nodes : List Nat) (a b : Nat) : Prop := cond a b = true ∧ a ∈ nodes ∧ b ∈ nodes

/-- A path along `cond` within the nodes of the list. -/
def Path (cond : Nat → Nat → Bool) (nodes : List Nat) : Nat → Nat → Prop := Relation.ReflTransGen (Edge cond nodes)

end Space
end Cnine
