import Verif.Model.Basic
import Verif.Model.OMap
import Verif.Model.View
import Mathlib.Algebra.Ring.Defs
import Mathlib.Data.Nat.Basic

/-!
# Models of math/Primes, Factorial, FFactorial, frational, cyclic, Determinant
-/

namespace Cnine

/-! ## math/Primes.hpp -/

/-- The loop `while(x%p==0) {x/=p; i++;}` (math/frational.hpp:36; without `i` math/Primes.hpp:32): the final `x` and `i`.  `fuel`
bounds the iterations; for `x ≠ 0` and `|p| ≥ 2` at most `|x|` are needed, otherwise the loop has no end, which is undefined
behaviour.  Division by 0 likewise. -/
def divOut (p : Int) : Nat → Int → Res (Int × Nat)
  | 0, _ => .ub
  | fuel + 1, x =>
    if p = 0 then .ub
    else if Int.tmod x p = 0 then do
      let r ← divOut p fuel (Int.tdiv x p)
      .ok (r.1, r.2 + 1)
    else .ok (x, 0)

/-- math/Primes.hpp:22-25: the entries and `limit`. -/
structure PrimeTable where
  tab : List Nat
  limit : Int
  deriving Repr, DecidableEq

namespace PrimeTable

/-- math/Primes.hpp:22-25. -/
def init : PrimeTable := ⟨[], 1⟩

/-- The loop math/Primes.hpp:31-34: `x` divided by the entries, stopping when it is 1. -/
def reduce : List Nat → Int → Res Int
  | [], x => .ok x
  | p :: ps, x => do
    let r ← divOut p (x.natAbs + 1) x
    if r.1 = 1 then .ok r.1 else reduce ps r.1

/-- The body of the loop math/Primes.hpp:29-36. -/
def add1 (tab : List Nat) (i : Int) : Res (List Nat) := do
  let x ← reduce tab i
  .ok (if x > 1 then tab ++ [x.toNat] else tab)

/-- The loop math/Primes.hpp:29-36: `n` rounds beginning with `i`. -/
def addLoop : Nat → Int → List Nat → Res (List Nat)
  | 0, _, tab => .ok tab
  | n + 1, i, tab => do
    let tab' ← add1 tab i
    addLoop n (i + 1) tab'

/-- math/Primes.hpp:27-38. -/
def extend (t : PrimeTable) (lim : Int) : Res PrimeTable :=
  if lim ≤ t.limit then .ok t
  else do
    let tab ← addLoop (lim - t.limit).toNat (t.limit + 1) t.tab
    .ok ⟨tab, lim⟩

end PrimeTable

/-! ## math/Factorial.hpp -/

/-- Product of two `int`s (math/Factorial.hpp:37): overflow is undefined behaviour. -/
def mulInt32 (a b : Int) : Res Int := if -2147483648 ≤ a * b ∧ a * b ≤ 2147483647 then .ok (a * b) else .ub

namespace Fact

/-- math/Factorial.hpp:27-29. -/
def init : List Int := [1]

/-- The loop math/Factorial.hpp:36-37: `n` rounds beginning with index `i`; the vector is filled up to `i`. -/
def fill : Nat → Nat → List Int → Res (List Int)
  | 0, _, f => .ok f
  | n + 1, i, f => do
    let a ← Res.get f (i - 1)
    let x ← mulInt32 a i
    fill n (i + 1) (f ++ [x])

/-- math/Factorial.hpp:31-40 for `n ≥ 0`; the zeros put in by `resize` are overwritten before they are read. -/
def get (f : List Int) (n : Nat) : Res (Int × List Int) :=
  if n < f.length then do
    let x ← Res.get f n
    .ok (x, f)
  else do
    let f' ← fill (n + 1 - f.length) f.length f
    let x ← Res.get f' n
    .ok (x, f')

end Fact

/-! ## math/frational.hpp -/

/-- math/frational.hpp:28: exponents by prime. -/
abbrev Frat := OMap Nat Int

namespace Frat

/-- `factors[p]+=e` (math/frational.hpp:37, 85, 92). -/
def addAt (p : Nat) (e : Int) (f : Frat) : Frat := OMap.set p ((OMap.find? p f).getD 0 + e) f

/-- The loop math/frational.hpp:34-39 over the rest of the prime table. -/
def factor : List Nat → Int → Frat → Res Frat
  | [], _, f => .ok f
  | p :: ps, x, f => do
    let r ← divOut p (x.natAbs + 1) x
    let f' := addAt p r.2 f
    if r.1 = 1 then .ok f' else factor ps r.1 f'

/-- math/frational.hpp:32-40; the table of primes is a global variable. -/
def ofInt (t : PrimeTable) (x : Int) : Res (Frat × PrimeTable) := do
  let t' ← t.extend x
  let f ← factor t'.tab x []
  .ok (f, t')

/-- math/frational.hpp:89-94. -/
def mul (f g : Frat) : Frat := g.foldl (fun r x => addAt x.1 x.2 r) f

/-- math/frational.hpp:82-87. -/
def div (f g : Frat) : Frat := g.foldl (fun r x => addAt x.1 (-x.2) r) f

/-- math/frational.hpp:42-46. -/
def ofInts (t : PrimeTable) (p q : Int) : Res (Frat × PrimeTable) := do
  let P ← ofInt t p
  let Q ← ofInt P.2 q
  .ok (div P.1 Q.1, Q.2)

/-- math/frational.hpp:66-70. -/
def pNotOne (f : Frat) : Bool := f.any fun x => decide (x.2 > 0)

/-- math/frational.hpp:72-76. -/
def qNotOne (f : Frat) : Bool := f.any fun x => decide (x.2 < 0)

end Frat

/-! ## math/FFactorial.hpp -/

namespace FFact

/-- math/FFactorial.hpp:29-31. -/
def init (t : PrimeTable) : Res (List Frat × PrimeTable) := do
  let r ← Frat.ofInt t 1
  .ok ([r.1], r.2)

/-- The loop math/FFactorial.hpp:40-43: `n` rounds beginning with `i`. -/
def extendLoop : Nat → Nat → List Frat × PrimeTable → Res (List Frat × PrimeTable)
  | 0, _, s => .ok s
  | n + 1, i, s => do
    let r ← Frat.ofInt s.2 i
    let b ← (match s.1.getLast? with | some b => .ok b | none => .ub)
    extendLoop n (i + 1) (s.1 ++ [Frat.mul b r.1], r.2)

/-- math/FFactorial.hpp:33-44 for `x ≥ 0`. -/
def get (s : List Frat × PrimeTable) (x : Nat) : Res (Frat × List Frat × PrimeTable) := do
  let s' ← if x < s.1.length then .ok s else extendLoop (x + 1 - s.1.length) s.1.length s
  let f ← Res.get s'.1 x
  .ok (f, s')

end FFact

/-! ## math/cyclic.hpp -/

/-- math/cyclic.hpp:27-28, for a signed integer type. -/
structure Cyc where
  n : Int
  v : Int
  deriving Repr, DecidableEq

namespace Cyc

/-- math/cyclic.hpp:30-31. -/
def mk' (n v : Int) : Res Cyc := if n = 0 then .ub else .ok ⟨n, Int.tmod v n⟩

/-- math/cyclic.hpp:50-52. -/
def add (x y : Cyc) : Res Cyc := mk' x.n (x.v + y.v)

/-- math/cyclic.hpp:54-56. -/
def sub (x y : Cyc) : Res Cyc := mk' x.n (x.v - y.v)

/-- math/cyclic.hpp:58-60. -/
def neg (x : Cyc) : Res Cyc := mk' x.n (x.n - x.v)

end Cyc

/-! ## math/Determinant.hpp -/

/-- tensors/TensorView_access.inc:34-37 with include/GstridesB.hpp:200-202: `x(i,j)`. -/
def rd2 {α : Type _} (m : Buf α) (v : View) (i j : Nat) : Res α :=
  match v.strides with
  | s0 :: s1 :: _ => m.read (v.off + (i * s0 + j * s1))
  | _ => .ub

/-- math/Determinant.hpp:22-32. -/
def determinant {α : Type _} [Ring α] (m : Buf α) (v : View) : Res α := do
  Res.assrt (v.dims.length = 2)
  let d0 ← Res.get v.dims 0
  let d1 ← Res.get v.dims 1
  Res.assrt (d0 = d1)
  Res.assrt (d0 = 3)
  let x00 ← rd2 m v 0 0
  let x11 ← rd2 m v 1 1
  let x22 ← rd2 m v 2 2
  let x12 ← rd2 m v 1 2
  let x21 ← rd2 m v 2 1
  let x01 ← rd2 m v 0 1
  let x20 ← rd2 m v 2 0
  let x10 ← rd2 m v 1 0
  let x02 ← rd2 m v 0 2
  .ok (x00 * (x11 * x22 - x12 * x21) + x01 * (x12 * x20 - x10 * x22) + x02 * (x10 * x21 - x11 * x20))

end Cnine
