import Mathlib.Algebra.BigOperators.Group.List.Basic

/-! # Specification vocabulary for einsum -/

namespace Cnine
namespace Einsum

/-! Labels are letters; everything here works for any type of labels. -/

variable {κ : Type} [DecidableEq κ]

/-- Positions at which the letter occurs. -/
def positions (c : κ) (s : List κ) : List Nat := (List.range s.length).filter fun i => s[i]? == some c

/-- The distinct letters of a string, in order of first occurrence. -/
def letters : List κ → List κ
  | [] => []
  | c :: s => c :: (letters s).filter (· != c)

/-- An assignment of values to letters, changed at one letter. -/
def upd (ρ : κ → Nat) (c : κ) (i : Nat) : κ → Nat := fun d => if d = c then i else ρ d

/-- Sum over all values (below `len c`) of the listed letters. -/
def sumOver {α : Type _} [Zero α] [Add α] (len : κ → Nat) (f : (κ → Nat) → α) : List κ → (κ → Nat) → α
  | [], ρ => f ρ
  | c :: cs, ρ => ((List.range (len c)).map fun i => sumOver len f cs (upd ρ c i)).sum

/-- The assignment is in range for the letters of the string. -/
def Fits (len : κ → Nat) (s : List κ) (ρ : κ → Nat) : Prop := ∀ c ∈ s, ρ c < len c

/-- The sum of the strides at the positions of a letter: the distance in memory when the letter's value
grows by one. -/
def comb (c : κ) (s : List κ) (strides : List Nat) : Nat :=
  ((s.zip strides).map fun p => if p.1 = c then p.2 else 0).sum

/-- Distinct letters of the first string that do not occur in the second. -/
def onlyIn (a b : List κ) : List κ := (letters a).filter fun c => decide (c ∉ b)

/-- Distinct letters of the first string that also occur in the second. -/
def common (a b : List κ) : List κ := (letters a).filter fun c => decide (c ∈ b)

/-- Distinct letters of `a` that occur in `b` and in `c`. -/
def inAll (a b c : List κ) : List κ := (letters a).filter fun k => decide (k ∈ b ∧ k ∈ c)

/-- Distinct letters of `a` that occur in `b` but not in `c`. -/
def inFirst (a b c : List κ) : List κ := (letters a).filter fun k => decide (k ∈ b ∧ k ∉ c)

/-- Distinct letters of `a` that occur neither in `b` nor in `c`. -/
def inNone (a b c : List κ) : List κ := (letters a).filter fun k => decide (k ∉ b ∧ k ∉ c)

/-! ### two operands -/

/-- Convolution letters. -/
def convs (xs ys rs : List Char) : List Char := (inAll rs xs ys).filter (· ∈ ['U', 'V', 'W'])
/-- Ordinary letters in all three strings. -/
def plain3 (xs ys rs : List Char) : List Char := (inAll rs xs ys).filter (· ∉ ['U', 'V', 'W', '*'])

/-- No letter is ignored: `S` is not shared by the result and just one operand, `*` is not in all three strings. -/
structure NoSpecial (xs ys rs : List Char) : Prop where
  gather : 'S' ∈ rs → ('S' ∈ xs ↔ 'S' ∈ ys)
  triple : ¬ ('*' ∈ rs ∧ '*' ∈ xs ∧ '*' ∈ ys)

/-- The limits on the number of letters of each kind. -/
structure Few (xs ys rs : List Char) : Prop where
  xsum : (inNone xs rs ys).length ≤ 3
  ysum : (inNone ys rs xs).length ≤ 3
  bcast : (inNone rs xs ys).length ≤ 3
  transfer : (common rs (xs ++ ys)).length ≤ 4
  contract : (inFirst xs ys rs).length + (convs xs ys rs).length ≤ 3

/-- The transfer letters, in the order of the parameters. -/
def transferLetters (xs ys rs : List Char) : List Char :=
  inFirst rs xs ys ++ convs xs ys rs ++ inFirst rs ys xs ++ plain3 xs ys rs

/-- The contracted letters. -/
def contractLetters (xs ys rs : List Char) : List Char := inFirst xs ys rs ++ convs xs ys rs

end Einsum
end Cnine
