import Verif.Model.Math

/-!
# Model of combinatorial/DeltaFactor.hpp

With containers/object_bank.hpp (an `unordered_map` from keys to objects made on demand), here a list of keys and objects.  `int` is
unbounded.  The operands of `*` and `/` may be evaluated in any order; the model evaluates from left to right.  The square root
(combinatorial/DeltaFactor.hpp:70-72), a `double`, is not modelled.
-/

namespace Cnine

namespace Delta

/-- combinatorial/DeltaFactor.hpp:24-31: the key. -/
abbrev Key := Int × Int × Int

/-- containers/object_bank.hpp:23-24 with the global `ffactorial` (combinatorial/DeltaFactor.hpp:51) and table of primes. -/
structure St where
  bank : List (Key × Frat)
  ff : List Frat × PrimeTable

/-- math/FFactorial.hpp:33-44 for any `int`: for a negative number the comparison with the unsigned size is false, the loop has no rounds, and
`f[x]` is outside the vector. -/
def fact (s : List Frat × PrimeTable) (x : Int) : Res (Frat × List Frat × PrimeTable) :=
  if x < 0 then .ub else FFact.get s x.toNat

/-- combinatorial/DeltaFactor.hpp:60-68: the new object. -/
def make (s : List Frat × PrimeTable) (k : Key) : Res (Frat × List Frat × PrimeTable) := do
  let r1 ← fact s (k.1 + k.2.1 - k.2.2)
  let r2 ← fact r1.2 (k.1 - k.2.1 + k.2.2)
  let r3 ← fact r2.2 (-k.1 + k.2.1 + k.2.2)
  let r4 ← fact r3.2 (k.1 + k.2.1 + k.2.2 + 1)
  .ok (Frat.div (Frat.mul (Frat.mul r1.1 r2.1) r3.1) r4.1, r4.2)

/-- containers/object_bank.hpp:45-51 `operator()(key)`, and combinatorial/DeltaFactor.hpp:74-76 `squared(a,b,c)`. -/
def squared (s : St) (k : Key) : Res (Frat × St) :=
  match s.bank.find? fun p => decide (p.1 = k) with
  | some p => .ok (p.2, s)
  | none => do
    let r ← make s.ff k
    .ok (r.1, ⟨(k, r.1) :: s.bank, r.2⟩)

end Delta

end Cnine
