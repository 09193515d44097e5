import Verif.Model.Rows
import Verif.Model.Elem

/-!
# Model of the constructors of TensorView and of stacking

A new tensor is a row-major block at the address `q` given by the caller of the model.  What an uninitialised block holds is
an arbitrary function `junk`.  `dev` is 0; `cast` is the conversion of an integer to the element type; the normal
distribution is an arbitrary sequence `gauss`.
-/

namespace Cnine

variable {α : Type}

/-- include/MemBlob.hpp / include/MemArr.hpp `MemArr(n,dev)`: `n` uninitialised cells at `q`. -/
def allocRaw (junk : Nat → α) (m : Buf α) (q n : Nat) : Buf α := fun c => if q ≤ c ∧ c < q + n then some (junk c) else m c

/-- `for(i<N) arr[i]=f(i)` on the block at `q`. -/
def fillBlock (f : Nat → α) (q N : Nat) (m : Buf α) : Res (Buf α) := loop N m fun i m => m.write (q + i) (f i)

namespace View

/-- The fields `dims(_dims), strides(GstridesB(_dims))` of tensors/TensorView.hpp:145-146. -/
def new (q : Nat) (dims : List Nat) : View := ⟨q, dims, rmStrides dims⟩

section
variable [Zero α] [One α] (cast : Nat → α) (gauss junk : Nat → α)

/-- tensors/TensorView.hpp:144-195 `TensorView(dims,fcode,dev)`. -/
def ofCode (code : Int) (q : Nat) (dims : List Nat) (m : Buf α) : Res (View × Buf α) :=
  let N := asize dims
  if code = 0 then .ok (new q dims, allocZero m q N)
  else if code = 1 then .ok (new q dims, allocRaw junk m q N)
  else if 1 < code then do
    let m := allocRaw junk m q N
    let m ← (if code = 2 then fillBlock (fun _ => 1) q N m
      else if code = 3 then fillBlock cast q N m
      else if code = 4 then fillBlock gauss q N m
      else .ok m)
    .ok (new q dims, m)
  else .ok (new q dims, allocRaw junk m q N)

/-- tensors/TensorView_constructors.hpp:109-111 `zero(dims)` (and 165-167 `zeros_like()`). -/
def zeroT (q : Nat) (dims : List Nat) (m : Buf α) : Res (View × Buf α) := ofCode cast gauss junk 0 q dims m

/-- tensors/TensorView_constructors.hpp:117-119 `ones(dims)` (and 169-171 `ones_like()`). -/
def onesT (q : Nat) (dims : List Nat) (m : Buf α) : Res (View × Buf α) := ofCode cast gauss junk 2 q dims m

/-- tensors/TensorView_constructors.hpp:121-123 `sequential(dims)`. -/
def seqT (q : Nat) (dims : List Nat) (m : Buf α) : Res (View × Buf α) := ofCode cast gauss junk 3 q dims m

/-- tensors/Ltensor.hpp:204-206 `Ltensor::ones(dims)`: passes fill code 1. -/
def onesL (q : Nat) (dims : List Nat) (m : Buf α) : Res (View × Buf α) := ofCode cast gauss junk 1 q dims m

end

/-- tensors/TensorView_access.inc:101-111 `set(i0,x)`, `set(i0,i1,x)`: range checks compiled out. -/
def setAt (v : View) (ix : List Nat) (x : α) (m : Buf α) : Res (Buf α) := do
  let o ← offs v.strides ix
  m.write (v.off + o) x

/-- tensors/TensorView_constructors.hpp:63-69 `TensorView(dims,fill_constant(v))`. -/
def constT [Zero α] (v : α) (q : Nat) (dims : List Nat) (m : Buf α) : Res (View × Buf α) := do
  let m ← fillBlock (fun _ => v) q (asize dims) (allocZero m q (asize dims))
  .ok (new q dims, m)

/-- tensors/TensorView_constructors.hpp:72-80 `TensorView(dims,fill_identity())` (133-135 `identity(dims)`). -/
def identityT [Zero α] [One α] (q : Nat) (dims : List Nat) (m : Buf α) : Res (View × Buf α) := do
  let R := new q dims
  let m := allocZero m q (asize dims)
  Res.assrt (dims.length = 2)
  let n0 ← Res.get dims 0
  let n1 ← Res.get dims 1
  Res.assrt (n0 = n1)
  let m ← loop n0 m fun i m => R.setAt [i, i] 1 m
  .ok (R, m)

/-- tensors/TensorView_constructors.hpp:137-142 `unit(n,i)`: the position is not checked. -/
def unitT [Zero α] [One α] (q n i : Nat) (m : Buf α) : Res (View × Buf α) := do
  let R := new q [n]
  let m ← R.setAt [i] 1 (allocZero m q (asize [n]))
  .ok (R, m)

/-- tensors/TensorView_constructors.hpp:181-192 `vec(list)` and 220-229 `init(list)`. -/
def vecT [Zero α] (q : Nat) (l : List α) (m : Buf α) : Res (View × Buf α) := do
  Res.assrt (0 < l.length)
  let R := new q [l.length]
  let p ← Res.forM l (0, allocZero m q (asize [l.length])) fun p x => do
    let m ← R.setAt [p.1] x p.2
    .ok (p.1 + 1, m)
  .ok (R, p.2)

/-- tensors/TensorView_constructors.hpp:195-209 `TensorView(list of lists)` and 232-246 `init(list of lists)`: the width is
that of the first row, the others are not checked. -/
def matT [Zero α] (q : Nat) (l : List (List α)) (m : Buf α) : Res (View × Buf α) := do
  Res.assrt (0 < l.length)
  let r0 ← Res.get l 0
  let R := new q [l.length, r0.length]
  let p ← Res.forM l (0, allocZero m q (asize [l.length, r0.length])) fun p r => do
    let s ← Res.forM r (0, p.2) fun s x => do
      let m ← R.setAt [p.1, s.1] x s.2
      .ok (s.1 + 1, m)
    .ok (p.1 + 1, s.2)
  .ok (R, p.2)

/-- tensors/TensorView_constructors.hpp:254-272 `stack(d,vector)` (= tensors/Ltensor.hpp:821-839). -/
def stack [Zero α] [Add α] (q d : Nat) (l : List View) (m : Buf α) : Res (View × Buf α) := do
  Res.assrt (0 < l.length)
  let x0 ← Res.get l 0
  Res.assrt (d < x0.dims.length)
  let rem ← gvRemove x0.dims d
  let t ← Res.forM l 0 fun t x => do
    let n ← Res.get x.dims d
    let r ← gvRemove x.dims d
    Res.assrt (r = rem)
    .ok (t + n)
  let ds ← gvSet x0.dims d t
  let R := new q ds
  let p ← Res.forM l (0, allocZero m q (asize ds)) fun p x => do
    let n ← Res.get x.dims d
    let s ← R.slices d p.1 n
    let m ← addView (· + ·) s x p.2
    .ok (p.1 + n, m)
  .ok (R, p.2)

/-- tensors/TensorView_constructors.hpp:274-279 `stack(d,initializer_list)` (= tensors/Ltensor.hpp:860-865): the axis is
ignored. -/
def stackInit [Zero α] [Add α] (q _d : Nat) (l : List View) (m : Buf α) : Res (View × Buf α) := stack q 0 l m

/-- tensors/Ltensor.hpp:841-858 `stack(d,vector of reference_wrapper)`: the dims of the result are those with axis `d`
already removed. -/
def stackRefs [Zero α] [Add α] (q d : Nat) (l : List View) (m : Buf α) : Res (View × Buf α) := do
  Res.assrt (0 < l.length)
  let x0 ← Res.get l 0
  Res.assrt (d < x0.dims.length)
  let rem ← gvRemove x0.dims d
  let t ← Res.forM l 0 fun t x => do
    let n ← Res.get x.dims d
    let r ← gvRemove x.dims d
    Res.assrt (r = rem)
    .ok (t + n)
  let ds ← gvSet rem d t
  let R := new q ds
  let p ← Res.forM l (0, allocZero m q (asize ds)) fun p x => do
    let n ← Res.get x.dims d
    let s ← R.slices d p.1 n
    let m ← addView (· + ·) s x p.2
    .ok (p.1 + n, m)
  .ok (R, p.2)

end View
end Cnine
