import Verif.Model.RView
import Verif.Spec.Index
import Verif.Spec.View
import Verif.Spec.BlockSparse

/-!
# What a tensor with two sparse axes should be

A block for each listed pair; entry `ix` of block number `t` lies at the row-major position, in the sizes of the dense axes with the
number of blocks inserted before axis `split`, of `ix` with `t` inserted there.
-/

namespace Cnine.SparseSpec

/-- The view `L` of memory `m` holds the pairs `l`. -/
def Pairs (L : RV2) (m : Buf Int) (l : List (Int × Int)) : Prop :=
  L.n0 = l.length ∧ L.n1 = 2 ∧ ∀ t p, l[t]? = some p → m (L.cell t 0) = some p.1 ∧ m (L.cell t 1) = some p.2

/-- Where entry `ix` of block number `t` of `n` blocks belongs. -/
def place (ddims : List Nat) (split n t : Nat) (ix : List Nat) : Nat :=
  position (ddims.insertIdx split n) (ix.insertIdx split t)

end Cnine.SparseSpec
