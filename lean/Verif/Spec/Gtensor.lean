import Verif.Model.Gtensor
import Verif.Spec.Index

/-!
# What a tensor that owns its array holds
-/

namespace Cnine

variable {α : Type}

namespace GT

/-- `x` is the tensor with entries `f`: the array lists the entries in row-major order. -/
structure Is (x : GT α) (D : List Nat) (f : List Nat → α) : Prop where
  ne : D ≠ []
  k : x.k = D.length
  dims : x.dims = D
  strides : x.strides = rmStrides D
  asize : x.asize = D.prod
  memsize : x.memsize = D.prod
  arr : x.arr = (allIndices D).map f

/-- `x` is an array, with axes `A`, of tensors with axes `D`, each in `p` cells. -/
structure IsArr (x : GT α) (A D : List Nat) (p : Nat) (f : List Nat → α) : Prop where
  neA : A ≠ []
  neD : D ≠ []
  pad : D.prod ≤ p ∧ p ≤ D.prod + 32 ∧ p % 32 = 0
  k : x.k = A.length + D.length
  dims : x.dims = A ++ D
  strides : x.strides = (rmStrides A).map (p * ·) ++ rmStrides D
  asize : x.asize = A.prod * D.prod
  memsize : x.memsize = A.prod * p
  length : x.arr.length = A.prod * p
  arr : ∀ ix, InRange ix A → ∀ jx, InRange jx D → x.arr[position A ix * p + position D jx]? = some (f (ix ++ jx))

end GT

end Cnine
