import Mathlib.Order.Defs.LinearOrder
import Mathlib.Data.Int.Order.Basic

/-!
# `std::map` and `std::set`

A `std::map` is the list of its entries by increasing key, a `std::set` the list of its elements.  These are the
standard library's operations, not code of the repository; they are used by the models of the classes built on them
(matrices/SparseRmatrix.hpp:31,100, containers/indexed_map.hpp:34, math/frational.hpp, combinatorial/PrefixTree.hpp,
algorithms/SortRowsUnique.hpp).
-/

namespace Cnine

/-- `std::map<κ,υ>` (e.g. matrices/SparseRmatrix.hpp:31). -/
abbrev OMap (κ υ : Type _) := List (κ × υ)

namespace OMap

variable {κ υ : Type _} [LinearOrder κ]

/-- `find(k)`: `none` for `end()` (e.g. matrices/SparseRmatrix.hpp:269). -/
def find? (k : κ) : OMap κ υ → Option υ
  | [] => none
  | (k', v) :: m => if k = k' then some v else find? k m

/-- `m[k]=v` (e.g. matrices/SparseRmatrix.hpp:64). -/
def set (k : κ) (v : υ) : OMap κ υ → OMap κ υ
  | [] => [(k, v)]
  | (k', v') :: m => if k < k' then (k, v) :: (k', v') :: m else if k = k' then (k, v) :: m else (k', v') :: set k v m

/-- `m.erase(k)` (of a `std::map`). -/
def erase (k : κ) (m : OMap κ υ) : OMap κ υ := m.filter fun p => !decide (p.1 = k)

/-- The keys are strictly increasing. -/
def Sorted (m : OMap κ υ) : Prop := (m.map Prod.fst).Pairwise (· < ·)

end OMap

end Cnine
