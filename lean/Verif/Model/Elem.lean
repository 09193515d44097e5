import Verif.Model.View

/-!
# Model of element-wise operations on tensor memory

CPU branches only.  All buffers live in one memory `Buf α`; a view's `off` is its `arr` pointer.
-/

namespace Cnine

variable {α : Type _}

/-- A C++ loop `for(int i=0; i<n; i++) body`. -/
def loop {σ : Type _} (n : Nat) (s : σ) (body : Nat → σ → Res σ) : Res σ :=
  Res.forM (List.range n) s (fun s i => body i s)

/-- `rarr[d]=xarr[s]`. -/
def copyCell (m : Buf α) (d s : Nat) : Res (Buf α) := do
  let v ← m.read s
  m.write d v

/-- `rarr[d]+=xarr[s]`, with the combining operation `op` as a parameter. -/
def updCell (op : α → α → α) (m : Buf α) (d s : Nat) : Res (Buf α) := do
  let a ← m.read d
  let b ← m.read s
  m.write d (op a b)

/-- `std::copy(src,src+n,dst)`: forward copy; undefined if `dst` lies in `[src,src+n)`. -/
def stdCopy (m : Buf α) (src n dst : Nat) : Res (Buf α) :=
  if src ≤ dst ∧ dst < src + n then .ub
  else loop n m (fun i m => copyCell m (dst + i) (src + i))

/-- include/Cnine_base_helpers.hpp:43-48 `stdadd(beg,end,dest)`. -/
def stdAdd (op : α → α → α) (m : Buf α) (src n dst : Nat) : Res (Buf α) :=
  loop n m (fun i m => updCell op m (dst + i) (src + i))

namespace View

/-- tensors/TensorView_lambdas.inc:116-119 `for_each(Gindex, TYPE&)`: the
callback gets the index and the cell `arr[strides.offs(ix)]`. -/
def forEachIx {σ : Type _} (v : View) (s : σ) (f : List Nat → Nat → σ → Res σ) : Res σ := do
  let l ← foreachIndex v.dims
  Res.forM l s (fun s ix => do
    let c ← v.addr ix
    f ix c s)

/-- The loop nests shared by tensors/functions/TensorView_add.hpp:90-161 `TensorView_add_loops` and
tensors/functions/TensorView_assign.hpp:104-191 `TensorView_assign_loops` (without row copies);
`cell m d s` is the loop body on target cell `d` and source cell `s`.  Rank 0 does nothing. -/
def pairLoops (cell : Buf α → Nat → Nat → Res (Buf α)) (r x : View) (m : Buf α) : Res (Buf α) :=
  match r.dims, r.strides, x.strides with
  | [], _, _ => .ok m
  | [n0], rs0 :: _, xs0 :: _ =>
    loop n0 m fun i0 m => cell m (r.off + i0 * rs0) (x.off + i0 * xs0)
  | [n0, n1], rs0 :: rs1 :: _, xs0 :: xs1 :: _ =>
    loop n0 m fun i0 m => loop n1 m fun i1 m =>
      cell m (r.off + i0 * rs0 + i1 * rs1) (x.off + i0 * xs0 + i1 * xs1)
  | [n0, n1, n2], rs0 :: rs1 :: rs2 :: _, xs0 :: xs1 :: xs2 :: _ =>
    loop n0 m fun i0 m => loop n1 m fun i1 m => loop n2 m fun i2 m =>
      cell m (r.off + i0 * rs0 + i1 * rs1 + i2 * rs2) (x.off + i0 * xs0 + i1 * xs1 + i2 * xs2)
  | [n0, n1, n2, n3], rs0 :: rs1 :: rs2 :: rs3 :: _, xs0 :: xs1 :: xs2 :: xs3 :: _ =>
    loop n0 m fun i0 m => loop n1 m fun i1 m => loop n2 m fun i2 m => loop n3 m fun i3 m =>
      cell m (r.off + i0 * rs0 + i1 * rs1 + i2 * rs2 + i3 * rs3)
        (x.off + i0 * xs0 + i1 * xs1 + i2 * xs2 + i3 * xs3)
  | _ :: _ :: _ :: _ :: _ :: _, _, _ =>
    r.forEachIx m fun ix d m => do
      let s ← x.addr ix
      cell m d s
  | _, _, _ => .ub

/-- tensors/functions/TensorView_assign.hpp:126-128,147-150,173-177: the `copylast` branches, ranks
2, 3 and 4. -/
def rowCopies (r x : View) (m : Buf α) : Res (Buf α) :=
  match r.dims, r.strides, x.strides with
  | [n0, n1], rs0 :: _, xs0 :: _ =>
    loop n0 m fun i0 m => stdCopy m (x.off + i0 * xs0) n1 (r.off + i0 * rs0)
  | [n0, n1, n2], rs0 :: rs1 :: _, xs0 :: xs1 :: _ =>
    loop n0 m fun i0 m => loop n1 m fun i1 m =>
      stdCopy m (x.off + i0 * xs0 + i1 * xs1) n2 (r.off + i0 * rs0 + i1 * rs1)
  | [n0, n1, n2, n3], rs0 :: rs1 :: rs2 :: _, xs0 :: xs1 :: xs2 :: _ =>
    loop n0 m fun i0 m => loop n1 m fun i1 m => loop n2 m fun i2 m =>
      stdCopy m (x.off + i0 * xs0 + i1 * xs1 + i2 * xs2) n3 (r.off + i0 * rs0 + i1 * rs1 + i2 * rs2)
  | _, _, _ => .ub

/-- tensors/functions/TensorView_assign.hpp:108: condition for copying whole rows. -/
def copyLast (r x : View) : Res Bool :=
  match r.strides.getLast?, x.strides.getLast?, r.dims.getLast? with
  | some a, some b, some n => .ok (a = 1 && b = 1 && 16 < n)
  | _, _, _ => .ub

/-- tensors/functions/TensorView_assign.hpp:104-191 `TensorView_assign_loops`. -/
def assignLoops (r x : View) (m : Buf α) : Res (Buf α) := do
  let cl ← copyLast r x
  if cl = true ∧ 2 ≤ r.dims.length ∧ r.dims.length ≤ 4 then rowCopies r x m
  else pairLoops copyCell r x m

/-- tensors/functions/TensorView_assign.hpp:36-59 and 90-93 `TensorView_assign`, both on the CPU. -/
def assign (r x : View) (m : Buf α) : Res (Buf α) := do
  Res.assrt (r.dims = x.dims)
  let m ← if r.dims.length = 0 then copyCell m r.off x.off else .ok m
  if asize r.dims = 0 then .ok m
  else do
    let c ← isContiguous r.strides r.dims
    if c = true ∧ r.strides = x.strides then do
      let n ← memsize x.strides x.dims
      stdCopy m x.off n r.off
    else do
      let (rp, xp) ← r.coScrunch x
      assignLoops rp xp m

/-- tensors/functions/TensorView_add.hpp:32-76 `TensorView_add`, with `op` for `+=`. -/
def addView (op : α → α → α) (r x : View) (m : Buf α) : Res (Buf α) := do
  Res.assrt (r.dims = x.dims)
  if asize r.dims = 0 then .ok m
  else do
    let c ← isContiguous r.strides r.dims
    if c = true ∧ r.strides = x.strides then do
      let n ← memsize x.strides x.dims
      stdAdd op m x.off n r.off
    else do
      let (rp, xp) ← r.coScrunch x
      pairLoops (updCell op) rp xp m

/-- tensors/TensorView_cumulative_ops.inc:49-66 `add(x,c)`, 133-145 `subtract(x)`, 156-169
`subtract(x,c)`, 99-112 `add_CX`: the common shape, with `op a b` the new value (`a+c*b`, `a-b`,
`a-c*b`, `a+c*conj(b)`).  The size checks (`CNINE_CHECK_SIZE`, `assert`) are only active in debug
builds; equal `asize` is the `assert`. -/
def addScaled (op : α → α → α) (r x : View) (m : Buf α) : Res (Buf α) := do
  let a ← isRegular r.strides r.dims
  let b ← isRegular x.strides x.dims
  if a = true ∧ b = true ∧ r.strides = x.strides then
    loop (asize r.dims) m fun i m => updCell op m (r.off + i) (x.off + i)
  else
    r.forEachIx m fun ix d m => do
      let s ← x.addr ix
      updCell op m d s

/-- tensors/TensorView_cumulative_ops.inc:194-208 `add_prod(x,y)` (and 250-263, 270-283), with
`op a b c` the new value (`a+b*c`). -/
def addProd (op : α → α → α → α) (r x y : View) (m : Buf α) : Res (Buf α) := do
  let a ← isRegular r.strides r.dims
  let b ← isRegular x.strides x.dims
  let c ← isRegular y.strides y.dims
  let upd := fun (m : Buf α) (d s t : Nat) => do
    let a ← m.read d
    let b ← m.read s
    let c ← m.read t
    m.write d (op a b c)
  if a = true ∧ b = true ∧ c = true ∧ r.strides = x.strides ∧ r.strides = y.strides then
    loop (asize r.dims) m fun i m => upd m (r.off + i) (x.off + i) (y.off + i)
  else
    r.forEachIx m fun ix d m => do
      let s ← x.addr ix
      let t ← y.addr ix
      upd m d s t

/-- tensors/TensorView_lambdas.inc:18-103 `for_each(TYPE&)`: ranks 1 to 5 by nested loops, rank 0
returns at once, higher ranks by `for_each_index`. -/
def forEach {σ : Type _} (v : View) (s : σ) (f : Nat → σ → Res σ) : Res σ :=
  match v.dims, v.strides with
  | [], _ => .ok s
  | [n0], s0 :: _ => loop n0 s fun i0 s => f (v.off + i0 * s0) s
  | [n0, n1], s0 :: s1 :: _ => loop n0 s fun i0 s => loop n1 s fun i1 s =>
      f (v.off + i0 * s0 + i1 * s1) s
  | [n0, n1, n2], s0 :: s1 :: s2 :: _ => loop n0 s fun i0 s => loop n1 s fun i1 s =>
      loop n2 s fun i2 s => f (v.off + i0 * s0 + i1 * s1 + i2 * s2) s
  | [n0, n1, n2, n3], s0 :: s1 :: s2 :: s3 :: _ => loop n0 s fun i0 s => loop n1 s fun i1 s =>
      loop n2 s fun i2 s => loop n3 s fun i3 s => f (v.off + i0 * s0 + i1 * s1 + i2 * s2 + i3 * s3) s
  | [n0, n1, n2, n3, n4], s0 :: s1 :: s2 :: s3 :: s4 :: _ =>
    loop n0 s fun i0 s => loop n1 s fun i1 s => loop n2 s fun i2 s => loop n3 s fun i3 s =>
      loop n4 s fun i4 s => f (v.off + i0 * s0 + i1 * s1 + i2 * s2 + i3 * s3 + i4 * s4) s
  | _ :: _ :: _ :: _ :: _ :: _ :: _, _ => do
    let l ← foreachIndex v.dims
    Res.forM l s (fun s ix => do
      let c ← v.addr ix
      f c s)
  | _, _ => .ub

/-- tensors/TensorView_cumulative_ops.inc:24-28 `add(const TYPE x)`; `f` is `v+=x`.  (The shortcut for
`x==0` changes nothing and is left out.) -/
def addScalar (f : α → α) (v : View) (m : Buf α) : Res (Buf α) :=
  if asize v.dims = 0 then .ok m
  else v.scrunch.forEach m fun c m => do
    let a ← m.read c
    m.write c (f a)

/-- tensors/TensorView.hpp:470-476 `set_zero()`: contiguous views are filled over `asize()` cells from
`mem()`; others only print a warning. -/
def setZero (zero : α) (v : View) (m : Buf α) : Res (Buf α) := do
  let c ← isContiguous v.strides v.dims
  if c then loop (asize v.dims) m fun i m => m.write (v.off + i) zero
  else .ok m

/-- tensors/TensorView.hpp:486-492 `inplace_times(c)`; `f` is `x*=c`. -/
def inplaceTimes (f : α → α) (v : View) (m : Buf α) : Res (Buf α) := do
  let c ← isContiguous v.strides v.dims
  if c then loop (asize v.dims) m fun i m => do
    let a ← m.read (v.off + i)
    m.write (v.off + i) (f a)
  else v.forEachIx m fun _ c m => do
    let a ← m.read c
    m.write c (f a)

/-- tensors/TensorView.hpp:439-449 `operator==` on the CPU. -/
def eqView [DecidableEq α] (v x : View) (m : Buf α) : Res Bool :=
  if v.dims ≠ x.dims then .ok false
  else do
    let a ← isRegular v.strides v.dims
    -- `&&` short-circuits, but the second call cannot fail when lengths agree
    let b ← isRegular x.strides x.dims
    if a = true ∧ b = true then
      let rec cmp : List Nat → Res Bool
        | [] => .ok true
        | i :: is => do
          let p ← m.read (v.off + i)
          let q ← m.read (x.off + i)
          if p = q then cmp is else .ok false
      cmp (List.range (asize v.dims))
    else .ok true

/-- The accumulating loops of tensors/TensorView_scalar_ops.inc 95-108 `norm2`, 139-150 `sum`
(with the early return for `asize()==0` folded in, as the loops are then empty): `f t a` is the new
accumulator; contiguous views read `arr[0..asize)`, others go through `for_each(ix)`. -/
def reduce {β : Type _} (f : β → α → β) (t0 : β) (v : View) (m : Buf α) : Res β := do
  let c ← isContiguous v.strides v.dims
  if c then loop (asize v.dims) t0 fun i t => do
    let a ← m.read (v.off + i)
    .ok (f t a)
  else v.forEachIx t0 fun _ c t => do
    let a ← m.read c
    .ok (f t a)

/-- tensors/TensorView_scalar_ops.inc:139-150 `sum()`. -/
def sumView [Zero α] [Add α] (v : View) (m : Buf α) : Res α :=
  if asize v.dims = 0 then .ok 0 else reduce (fun t a => t + a) 0 v m

/-- tensors/TensorView_scalar_ops.inc:95-108 `norm2()` for real types. -/
def norm2View [Zero α] [Add α] [Mul α] (v : View) (m : Buf α) : Res α :=
  reduce (fun t a => t + a * a) 0 v m

/-- tensors/TensorView_scalar_ops.inc:15-26 `max()`, with `better a t` for `a>t`; and 28-39 `min()`
with `a<t`. -/
def extremum [Zero α] (better : α → α → Bool) (v : View) (m : Buf α) : Res α :=
  if asize v.dims = 0 then .ok 0
  else do
    let t ← m.read v.off
    reduce (fun t a => if better a t then a else t) t v m

/-- tensors/TensorView_scalar_ops.inc:55-73 `inp(y)` for real types, and 156-179 `diff2` (with the
term `f a b`): both regular: `Σ f(arr[i], y.arr[i])`, else `for_each(ix)` with `y(ix)`. -/
def inpWith [Zero α] [Add α] (f : α → α → α) (v y : View) (m : Buf α) : Res α := do
  let a ← isRegular v.strides v.dims
  let b ← isRegular y.strides y.dims
  if a = true ∧ b = true then
    loop (asize v.dims) 0 fun i t => do
      let p ← m.read (v.off + i)
      let q ← m.read (y.off + i)
      .ok (t + f p q)
  else v.forEachIx 0 fun ix c t => do
    let p ← m.read c
    let d ← y.addr ix
    let q ← m.read d
    .ok (t + f p q)

/-- tensors/TensorView_scalar_ops.inc:55-73 `inp(y)`. -/
def inpView [Zero α] [Add α] [Mul α] (v y : View) (m : Buf α) : Res α := do
  Res.assrt (v.dims = y.dims)
  inpWith (fun a b => a * b) v y m

/-- tensors/TensorView_scalar_ops.inc:156-179 `diff2(x)`: only the number of elements is checked. -/
def diff2View [Zero α] [Add α] [Sub α] [Mul α] (v x : View) (m : Buf α) : Res α := do
  Res.assrt (asize x.dims = asize v.dims)
  inpWith (fun a b => (b - a) * (b - a)) v x m

end View
end Cnine
