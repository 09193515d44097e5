import Verif.Model.Gpu

/-!
# What launches should do
-/

namespace Cnine

variable {α β ι : Type}

namespace Gpu

/-- However the threads are interleaved, the launches end without undefined behaviour in a memory with `Q`; and there is such an order. -/
def Ends (ls : List (Launch α)) (m : Buf α) (Q : Buf α → Prop) : Prop :=
  (∃ m', Out ls m (.ok m')) ∧ ∀ o, Out ls m o → ∃ m', o = .ok m' ∧ Q m'

/-- The cells `c i` for the `i` in `D` hold `v i`, all others are unchanged. -/
def Upd (m m' : Buf α) (D : ι → Prop) (c : ι → Nat) (v : ι → α) : Prop :=
  (∀ i, D i → m' (c i) = some (v i)) ∧ ∀ p, (∀ i, D i → p ≠ c i) → m' p = m p

/-- Entries `i` in `D` of two views: those of the first lie in cells `rc i` of their own and hold `a i`, those of the second lie in `xc i` and hold `b i`; a cell of both
belongs to the same entry. -/
structure Meets (m : Buf α) (D : ι → Prop) (rc xc : ι → Nat) (a b : ι → α) : Prop where
  inj : ∀ i j, D i → D j → rc i = rc j → i = j
  apart : ∀ i j, D i → D j → rc i = xc j → i = j
  rval : ∀ i, D i → m (rc i) = some (a i)
  xval : ∀ i, D i → m (xc i) = some (b i)

/-- A thread reads cells of `R` and `W` only and writes cells of `W` only, whatever it reads. -/
def Within (R W : Nat → Prop) : Thr α β → Prop
  | .ret _ => True
  | .read p k => (R p ∨ W p) ∧ ∀ v, Within R W (k v)
  | .write p _ k => W p ∧ Within R W k
  | .fail => True

end Gpu

end Cnine
