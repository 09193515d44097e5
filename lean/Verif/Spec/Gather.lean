/-!
# What gather maps are meant to be

A gather map is a list of rows, each a target with its sources; it stands for the pairs (target, source).
-/

namespace Cnine.GatherSpec

/-- The edges (target, source) of a list of rows. -/
def edges {β : Type} (rows : List (Int × List β)) : List (Int × β) :=
  rows.flatMap fun r => r.2.map fun s => (r.1, s)

/-- An edge list turned around. -/
def reversed (es : List (Int × Int)) : List (Int × Int) := es.map fun e => (e.2, e.1)

/-- A smallest strict bound, at least `lo`, of the members of `l`. -/
structure Bound (lo : Int) (l : List Int) (n : Int) : Prop where
  ge : lo ≤ n
  bound : ∀ x, x ∈ l → x < n
  least : n = lo ∨ ∃ x, x ∈ l ∧ n = x + 1

end Cnine.GatherSpec
