import Verif.Lemmas.Adds
import Mathlib.Algebra.BigOperators.Ring.Finset

/-!
# Specification: scaling slices and Givens rotations of slices
-/

namespace Cnine
namespace SliceOps

open Finset

variable {α : Type}

/-- A view of one axis that holds the numbers `P 0, P 1, …`. -/
def Lists (v : SV) (n : Nat) {β : Type} (m : Buf β) (P : Nat → β) : Prop := v.WF ∧ v.dims = [n] ∧ v.Holds m fun ix => P (ix.headD 0)

/-- A view of two axes that holds the pairs `(P 0, Q 0), (P 1, Q 1), …`. -/
def Pairs (v : SV) (n : Nat) {β : Type} (m : Buf β) (P Q : Nat → β) : Prop :=
  v.WF ∧ v.dims = [n, 2] ∧ v.Holds m fun ix => if ix.tail.headD 0 = 0 then P (ix.headD 0) else Q (ix.headD 0)

/-- A view of different cells that holds `F`. -/
def Data (x : SV) (dims : List Nat) (m : Buf α) (F : List Nat → α) : Prop := x.WF ∧ x.dims = dims ∧ x.Inj ∧ x.Holds m F

/-- The matrix of a rotation in the plane of the axes `p` and `q`. -/
def giv [CommRing α] (p q : Nat) (c s : α) (a b : Nat) : α :=
  if a = p then (if b = p then c else if b = q then s else 0)
  else if a = q then (if b = q then c else if b = p then -s else 0)
  else if a = b then 1 else 0

/-- The matrix of a reflection in the plane of the axes `p` and `q`. -/
def mirror [CommRing α] (p q : Nat) (c s : α) (a b : Nat) : α :=
  if a = p then (if b = p then c else if b = q then s else 0)
  else if a = q then (if b = q then -c else if b = p then s else 0)
  else if a = b then 1 else 0

/-- The entries after the matrices `M 0, …, M (k-1)` have been applied to the first axis one after the other. -/
def applied [CommRing α] (n0 : Nat) (M : Nat → Nat → Nat → α) (F : List Nat → α) : Nat → List Nat → α
  | 0 => F
  | k + 1 => fun jx => ∑ b ∈ range n0, M k (jx.headD 0) b * applied n0 M F k (b :: jx.tail)

end SliceOps
end Cnine
