import Mathlib.Algebra.Group.Defs
import Mathlib.Algebra.BigOperators.Group.Finset.Basic

/-!
# What a table with two indices and a block sparse matrix are

Independent of the model: a list of settings has for each pair of indices the value set last; a block sparse matrix is the
dense matrix in which the given blocks are placed and the rest is zero.
-/

namespace Cnine.BlockSpec

variable {α υ : Type _}

/-- The value set last for (i,j). -/
def lastSet (l : List (Int × Int × υ)) (i j : Int) : Option υ :=
  (l.reverse.find? fun e => decide (e.1 = i ∧ e.2.1 = j)).map fun e => e.2.2

/-- Lexicographic order of the positions. -/
def Before (a b : Int × Int × υ) : Prop := a.1 < b.1 ∨ (a.1 = b.1 ∧ a.2.1 < b.2.1)

/-- `t` is the last place at which the mask has the pair (i,j). -/
def LastPlace (mask : List (Int × Int)) (i j : Int) (t : Nat) : Prop :=
  mask[t]? = some (i, j) ∧ ∀ s, t < s → mask[s]? ≠ some (i, j)

/-- The entry (a,b) of the matrix made of blocks of size `bn × bm`; `off i j` is the number of the block at (i,j), `E t` are
the entries of block number `t`. -/
def dense [Zero α] (off : Int → Int → Option Nat) (E : Nat → Nat → Nat → α) (bn bm a b : Nat) : α :=
  match off (a / bn : Nat) (b / bm : Nat) with
  | some t => E t (a % bn) (b % bm)
  | none => 0

end Cnine.BlockSpec
