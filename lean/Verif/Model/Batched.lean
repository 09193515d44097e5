import Verif.Model.Threads

/-!
# Model of tensors/BatchedTensor.hpp

The tensors enter with their numbers of batches; the function that is called for each batch gets the number of the batch and the numbers of the two slices.  The second
`for_each_batch_multi` (90-98) uses a macro that is not defined, and is left out.
-/

namespace Cnine

variable {σ : Type}

namespace Batched

/-- tensors/BatchedTensor.hpp:52-61 `dominant_batch(y)`. -/
def dominant (xb yb : Int) : Res Int :=
  if xb = yb then .ok xb else if xb = 1 then .ok yb else if yb = 1 then .ok xb else .throw

/-- tensors/BatchedTensor.hpp:67-87 `for_each_batch_multi(x,lambda)` of a tensor with `B` batches, `x` with `X`, by a thread whose `nthreads` is `T`, from memory `m`:
the possible memories at the end and the calls in the order in which they finish (batch, slice of this tensor, slice of `x`). -/
inductive ForEach (lam : Nat → Nat → Nat → σ → σ) (B X : Nat) (T : Int) (m : σ) : σ → List (Nat × Nat × Nat) → Prop
  /-- lines 71-76 -/
  | one : B = 1 → ForEach lam B X T m ((List.range X).foldl (fun m b => lam b 0 b m) m) ((List.range X).map fun b => (b, 0, b))
  /-- lines 78-82, and 84-86, for there is no `return` -/
  | xone (m1 m2 : σ) (l1 l2 : List Nat) : B ≠ 1 → X = 1 → MultiLoopRuns (fun b => lam b b 0) B false T m m1 l1 → MultiLoopRuns (fun b => lam b b b) B false T m1 m2 l2 →
      ForEach lam B X T m m2 ((l1.map fun b => (b, b, 0)) ++ l2.map fun b => (b, b, b))
  /-- lines 84-86 -/
  | both (m1 : σ) (l1 : List Nat) : B ≠ 1 → X ≠ 1 → MultiLoopRuns (fun b => lam b b b) B false T m m1 l1 → ForEach lam B X T m m1 (l1.map fun b => (b, b, b))

end Batched

end Cnine
