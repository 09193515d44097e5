import Verif.Model.CellMaps

/-!
# What maps over cells should do
-/

namespace Cnine

variable {V : Type}

namespace CMap

/-- The cells of an array hold `X`. -/
def Holds (m : Buf V) (a : Arr) (X : Nat → V) : Prop := ∀ i, i < a.aasize → m (a.cell i) = some (X i)

/-- Two arrays share no cell. -/
def Apart (r x : Arr) : Prop := ∀ i j, i < r.aasize → j < x.aasize → r.cell i ≠ x.cell j

/-- A cell operation that puts `F x y` into its target, or adds it there. -/
def Cop [Add V] (op : Op V) (F : V → V → V) : Prop := ∀ m t x y a b c flag, m x = some a → m y = some b → m t = some c → t ≠ x → t ≠ y →
  op m t x y flag = .ok fun p => if p = t then some (if flag then c + F a b else F a b) else m p

/-- A cell operation that adds `F x y` to its target. -/
def Acc [Add V] (op : Op3 V) (F : V → V → V) : Prop := ∀ m t x y a b c, m x = some a → m y = some b → m t = some c → t ≠ x → t ≠ y →
  op m t x y = .ok fun p => if p = t then some (c + F a b) else m p

/-- The cells of `r` hold `X` in the end, all other cells are as before. -/
def Becomes (m m' : Buf V) (r : Arr) (X : Nat → V) : Prop := Holds m' r X ∧ ∀ p, (∀ i, i < r.aasize → p ≠ r.cell i) → m' p = m p

/-- The sum of `g j` for `j` below `n`. -/
def sumTo [AddCommMonoid V] (n : Nat) (g : Nat → V) : V := ((List.range n).map g).sum

/-- What a target that held `c` holds after `s` has been put there or, with the flag, added. -/
def put [Add V] (flag : Bool) (c s : V) : V := if flag then c + s else s

/-- The floats of the first `n` cells of an array on the GPU. -/
def GHolds (m : Buf V) (a : GArr) (n asize : Nat) (X XI : Nat → Nat → V) : Prop := ∀ i t, i < n → t < asize → m (a.re i t) = some (X i t) ∧ m (a.im i t) = some (XI i t)

/-- The floats of an array lie in places of their own. -/
structure GOwn (r : GArr) (n asize : Nat) : Prop where
  re : ∀ i j t u, i < n → j < n → t < asize → u < asize → r.re i t = r.re j u → i = j ∧ t = u
  im : ∀ i j t u, i < n → j < n → t < asize → u < asize → r.im i t = r.im j u → i = j ∧ t = u
  ne : ∀ i j t u, i < n → j < n → t < asize → u < asize → r.re i t ≠ r.im j u

/-- Two arrays on the GPU share no float. -/
structure GApart (r : GArr) (n : Nat) (x : GArr) (k asize : Nat) : Prop where
  rr : ∀ i j t u, i < n → j < k → t < asize → u < asize → r.re i t ≠ x.re j u
  ri : ∀ i j t u, i < n → j < k → t < asize → u < asize → r.re i t ≠ x.im j u
  ir : ∀ i j t u, i < n → j < k → t < asize → u < asize → r.im i t ≠ x.re j u
  ii : ∀ i j t u, i < n → j < k → t < asize → u < asize → r.im i t ≠ x.im j u

/-- The floats of the first `n` cells hold `X`, `XI` in the end, everything else is as before. -/
def GBecomes (m m' : Buf V) (r : GArr) (n asize : Nat) (X XI : Nat → Nat → V) : Prop :=
  GHolds m' r n asize X XI ∧ ∀ p, (∀ i t, i < n → t < asize → p ≠ r.re i t ∧ p ≠ r.im i t) → m' p = m p

end CMap

end Cnine
