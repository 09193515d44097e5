import Mathlib.Data.List.Basic

/-!
# `std::unordered_map`

A list of entries with different keys, in the order of iteration.  The C++ standard leaves that order open; theorems about
iteration are stated up to permutation or for every order.  These are the standard library's operations, not code of
the repository (used e.g. at containers/bidirectional_map.hpp:27-28, containers/map_of_maps.hpp:29,
containers/object_bank.hpp:23, containers/map_of_lists.hpp:26).
-/

namespace Cnine

/-- `std::unordered_map<κ,υ>` (e.g. containers/bidirectional_map.hpp:27). -/
abbrev UMap (κ υ : Type _) := List (κ × υ)

namespace UMap

variable {κ υ : Type _} [DecidableEq κ]

/-- `find(k)`: `none` for `end()` (e.g. containers/bidirectional_map.hpp:37). -/
def find? (k : κ) : UMap κ υ → Option υ
  | [] => none
  | (k', v) :: m => if k = k' then some v else find? k m

/-- `emplace(k,v)`, `insert({k,v})`: nothing happens if the key is there (e.g. containers/bidirectional_map.hpp:59). -/
def emplace (k : κ) (v : υ) (m : UMap κ υ) : UMap κ υ :=
  match find? k m with
  | some _ => m
  | none => m ++ [(k, v)]

/-- `m[k]=v` (e.g. containers/object_bank.hpp:49). -/
def set (k : κ) (v : υ) : UMap κ υ → UMap κ υ
  | [] => [(k, v)]
  | (k', v') :: m => if k = k' then (k, v) :: m else (k', v') :: set k v m

/-- `erase(k)` (e.g. containers/bidirectional_map.hpp:71). -/
def erase (k : κ) (m : UMap κ υ) : UMap κ υ := m.filter fun p => !decide (p.1 = k)

omit [DecidableEq κ] in
/-- No key twice. -/
def Ok (m : UMap κ υ) : Prop := (m.map Prod.fst).Nodup

end UMap

end Cnine
