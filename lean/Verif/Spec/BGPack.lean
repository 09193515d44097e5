import Verif.Model.BGPack

/-!
# What packs should hold
-/

namespace Cnine

variable {K I α : Type}

namespace BGPack

/-- Keys occur once and every part has an array. -/
structure Ok (m : List (I × α)) (p : Pack K I) : Prop where
  keys : (p.parts.map Prod.fst).Nodup
  arrays : ∀ q ∈ p.parts, ∃ a, q.2 = some a ∧ a < m.length

/-- Under the key `k` there is an array that holds `v`. -/
def Holds (m : List (I × α)) (p : Pack K I) (k : K) (v : α) : Prop := ∃ a i, (k, some a) ∈ p.parts ∧ m[a]? = some (i, v)

/-- The array `a` belongs to the pack. -/
def Uses (p : Pack K I) (a : Nat) : Prop := ∃ k, (k, some a) ∈ p.parts

/-- What a command adds to a gradient, given the contents of arrays. -/
def contribution [Zero α] (val : Nat → α) : GCmd α → α
  | .add x => val x
  | .addC c x => c (val x)
  | .get => 0

/-- The array a command reads. -/
def reads : GCmd α → Option Nat
  | .add x => some x
  | .addC _ x => some x
  | .get => none

/-- A plain `add_to_grad(x)`. -/
def isAdd : GCmd α → Bool
  | .add _ => true
  | _ => false

end BGPack

end Cnine
