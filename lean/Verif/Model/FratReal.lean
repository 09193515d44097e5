import Verif.Model.Math
import Mathlib.Algebra.Field.Defs

/-!
# Model of the conversions of math/frational.hpp to `double`

`double` is a field here and `::log` a function on the primes: no rounding and no overflow.
-/

namespace Cnine.Frat

variable {K : Type _} [Field K]

/-- math/frational.hpp:52-57 `operator double`. -/
def toDouble (f : Frat) : K := f.foldl (fun r x => r * (x.1 : K) ^ x.2) 1

/-- math/frational.hpp:59-64 `log()`. -/
def logSum (lg : Nat → K) (f : Frat) : K := f.foldl (fun r x => r + lg x.1 * (x.2 : K)) 0

/-- math/frational.hpp:96-98 `operator*(int)`; the table of primes is a global variable. -/
def mulInt (t : PrimeTable) (f : Frat) (y : Int) : Res (Frat × PrimeTable) := do
  let r ← ofInt t y
  .ok (mul f r.1, r.2)

end Cnine.Frat
