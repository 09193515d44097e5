import Verif.Model.Index
import Verif.Model.Elem

/-!
# Model of include/Gtensor.hpp: tensors that own an array

On the CPU (`dev=0`, so the checks of the device pass and `to_device(0)` does nothing).  Sizes are natural numbers and `int` is unbounded.
The allocated array is a list.  `new TYPE[n]` leaves its cells with any values: they are a parameter `junk` of each function that allocates,
and the theorems hold for all of them.  The matching of `new[]` with `delete` (include/Gtensor.hpp:64) is not modelled.
Views share the array of their owner; here a view has the owner's list, and what is written through it is the owner's new list.
-/

namespace Cnine

variable {α : Type}

/-- include/Gtensor.hpp:45-62. -/
structure GT (α : Type) where
  k : Nat
  ak : Nat
  dims : List Nat
  strides : List Nat
  asize : Nat
  memsize : Nat
  isView : Bool
  arr : List α

namespace GT

/-- `arr[t]=v`, as in include/Gtensor.hpp:465. -/
def wr (a : List α) (t : Nat) (v : α) : Res (List α) := if t < a.length then .ok (a.set t v) else .ub

/-- `new TYPE[n]`, as in include/Gtensor.hpp:85. -/
def alloc (junk : Nat → α) (n : Nat) : List α := (List.range n).map junk

/-- include/Cnine_base_helpers.hpp:12-14 `roundup(x,s)`, for `x = 0` too (the division rounds towards 0). -/
def roundup (x s : Nat) : Nat := ((x - 1) / s + 1) * s

/-- include/Gtensor.hpp:81-92 with `make_strides()` (156-164).  With no axes `strides[k-1]` is outside the vector. -/
def new (junk : Nat → α) (dims : List Nat) : Res (GT α) :=
  match dims with
  | [] => .ub
  | d :: ds =>
    let strides := rmStridesFrom 1 (d :: ds)
    let memsize := strides.headD 0 * d
    .ok ⟨dims.length, 0, dims, strides, memsize, memsize, false, alloc junk memsize⟩

/-- include/Gtensor.hpp:112-124 with `make_strides(ak)` (166-177): an array of tensors, each padded to a multiple of 32.  When there are array axes
but no others, `strides[ak]` is outside the vector. -/
def newArray (junk : Nat → α) (adims dims : List Nat) : Res (GT α) :=
  match adims with
  | [] => new junk dims
  | a :: as =>
    match dims with
    | [] => .ub
    | d :: ds =>
      let low := rmStridesFrom 1 (d :: ds)
      let high := rmStridesFrom (roundup (low.headD 0 * d) 32) (a :: as)
      let memsize := high.headD 0 * a
      let all := (a :: as) ++ (d :: ds)
      .ok ⟨all.length, adims.length, all, high ++ low, Cnine.asize all, memsize, false, alloc junk memsize⟩

/-- include/Gtensor.hpp:126-134, from a vector. -/
def ofVec (v : List α) : GT α := ⟨1, 0, [v.length], [1], v.length, v.length, false, v⟩

/-- include/Gtensor.hpp:195-199, filled with zeros. -/
def zeros [Zero α] (junk : Nat → α) (dims : List Nat) : Res (GT α) := do
  let R ← new junk dims
  .ok { R with arr := List.replicate R.memsize 0 }

/-- include/Gtensor.hpp:201-209, the identity matrix. -/
def ident [Zero α] [One α] (junk : Nat → α) (dims : List Nat) : Res (GT α) := do
  let R ← new junk dims
  Res.assrt (dims.length = 2)
  let d0 ← Res.get dims 0
  let d1 ← Res.get dims 1
  Res.assrt (d0 = d1)
  let arr ← loop d1 (List.replicate R.memsize 0) fun i a => wr a (i * (d0 + 1)) 1
  .ok { R with arr := arr }

/-- include/Gtensor.hpp:234-238, filled with 0, 1, 2… -/
def sequential [NatCast α] (junk : Nat → α) (dims : List Nat) : Res (GT α) := do
  let R ← new junk dims
  let arr ← loop R.asize R.arr fun i a => wr a i (i : α)
  .ok { R with arr := arr }

/-- `std::copy(src+s,src+s+n,dst+d)` between different arrays, as in include/Gtensor.hpp:289. -/
def copyCells (src : List α) (s n : Nat) (dst : List α) (d : Nat) : Res (List α) :=
  if s + n ≤ src.length ∧ d + n ≤ dst.length then .ok (dst.take d ++ (src.drop s).take n ++ dst.drop (d + n)) else .ub

/-- include/Gtensor.hpp:284-299 copy constructor, with the constructor of 94-101 that allocates `asize` cells. -/
def copy (junk : Nat → α) (x : GT α) : Res (GT α) := do
  let arr ← copyCells x.arr 0 x.memsize (alloc junk x.asize) 0
  .ok ⟨x.k, x.ak, x.dims, x.strides, x.asize, x.memsize, false, arr⟩

/-- include/Gtensor.hpp:360-372 conversions from other types; `f` is the conversion of an entry. -/
def convert {β : Type} (junk : Nat → β) (f : α → β) (x : GT α) : Res (GT β) := do
  let arr ← loop x.asize (alloc junk x.asize) fun i a => do
    let v ← Res.get x.arr i
    wr a i (f v)
  .ok ⟨x.k, 0, x.dims, x.strides, x.asize, x.asize, false, arr⟩

/-- include/Gtensor.hpp:328-343 `operator=(const Gtensor&)`; `same` says that both sides are the same object.  Then the array is deleted before
it is copied, or, in a view, the new array is copied to itself. -/
def assign (junk : Nat → α) (t x : GT α) (same : Bool) : Res (GT α) := do
  if same then
    if t.isView then .ok { x with isView := true, arr := alloc junk x.memsize }
    else do
      Res.need (x.memsize = 0)
      .ok { x with arr := [] }
  else do
    let arr ← copyCells x.arr 0 x.memsize (alloc junk x.memsize) 0
    .ok ⟨x.k, x.ak, x.dims, x.strides, x.asize, x.memsize, t.isView, arr⟩

/-- include/Gtensor.hpp:345-354 `operator=(Gtensor&&)`; when both sides are the same object the array is deleted and the pointer to it is null. -/
def moveAssign (x : GT α) (same : Bool) : GT α := if same then { x with arr := [] } else x

/-- include/Gtensor.hpp:378-388 a view with other dims, and 390-396 `flat_view()`, `reshape_view(dims)`. -/
def reshapeView (x : GT α) (dims : List Nat) : Res (GT α) :=
  match dims with
  | [] => .ub
  | d :: ds => do
    let strides := rmStridesFrom 1 (d :: ds)
    let asize := strides.headD 0 * d
    Res.assrt (asize = x.asize)
    .ok ⟨dims.length, 0, dims, strides, asize, x.memsize, true, x.arr⟩

/-- include/Gtensor.hpp:390-392. -/
def flatView (x : GT α) : Res (GT α) := reshapeView x [x.asize]

/-! ### Access -/

/-- include/Gtensor.hpp:443 and the same loops in the other functions: `Σ ix[i]*strides[i]` for `i` below `k`. -/
def offset (x : GT α) (ix : List Nat) : Res Nat :=
  loop x.k 0 fun i t => do
    let j ← Res.get ix i
    let s ← Res.get x.strides i
    .ok (t + j * s)

/-- include/Gtensor.hpp:440-459 `operator()(ix)`, `get(ix)`. -/
def at' (x : GT α) (ix : List Nat) : Res α := do
  let t ← offset x ix
  Res.get x.arr t

/-- include/Gtensor.hpp:461-466 `set(ix,v)`. -/
def set (x : GT α) (ix : List Nat) (v : α) : Res (GT α) := do
  let t ← offset x ix
  let arr ← wr x.arr t v
  .ok { x with arr := arr }

/-- include/Gtensor.hpp:468-473 `inc(ix,v)`. -/
def inc [Add α] (x : GT α) (ix : List Nat) (v : α) : Res (GT α) := do
  let t ← offset x ix
  let o ← Res.get x.arr t
  let arr ← wr x.arr t (o + v)
  .ok { x with arr := arr }

/-- include/Gtensor.hpp:491-516, the offset of an index in two parts. -/
def offset2 (x : GT α) (ix1 ix2 : List Nat) : Res Nat := do
  let t ← loop ix1.length 0 fun i t => do
    let j ← Res.get ix1 i
    let s ← Res.get x.strides i
    .ok (t + j * s)
  loop (x.k - ix1.length) t fun i t => do
    let j ← Res.get ix2 i
    let s ← Res.get x.strides (ix1.length + i)
    .ok (t + j * s)

/-- include/Gtensor.hpp:491-498 `get(ix1,ix2)`. -/
def get2 (x : GT α) (ix1 ix2 : List Nat) : Res α := do
  let t ← offset2 x ix1 ix2
  Res.get x.arr t

/-- include/Gtensor.hpp:500-507 `set(ix1,ix2,v)`. -/
def set2 (x : GT α) (ix1 ix2 : List Nat) (v : α) : Res (GT α) := do
  let t ← offset2 x ix1 ix2
  let arr ← wr x.arr t v
  .ok { x with arr := arr }

/-- include/Gtensor.hpp:522-625, an index followed by one to three numbers, here a list `is`. -/
def getArr (x : GT α) (ix is : List Nat) : Res α := do
  Res.assrt ((ix.length : Int) = (x.k : Int) - (is.length : Int))
  let t ← loop (x.k - is.length) 0 fun i t => do
    let j ← Res.get ix i
    let s ← Res.get x.strides i
    .ok (t + j * s)
  let t ← loop is.length t fun i t => do
    let j ← Res.get is i
    let s ← Res.get x.strides (x.k - is.length + i)
    .ok (t + j * s)
  Res.get x.arr t

/-- include/Gtensor.hpp:630-839, one to seven numbers, here a list. -/
def getInts (x : GT α) (is : List Nat) : Res α := do
  Res.assrt (x.k = is.length)
  let t ← offset x is
  Res.get x.arr t

/-- include/Gtensor.hpp:648-839, the same for `set`. -/
def setInts (x : GT α) (is : List Nat) (v : α) : Res (GT α) := do
  Res.assrt (x.k = is.length)
  let t ← offset x is
  let arr ← wr x.arr t v
  .ok { x with arr := arr }

/-! ### Slices -/

/-- include/Gtensor.hpp:854, 863-864: the offset of the first axes. -/
def lead (x : GT α) (ix : List Nat) : Res Nat :=
  loop ix.length 0 fun i t => do
    let j ← Res.get ix i
    let s ← Res.get x.strides i
    .ok (t + j * s)

/-- include/Gtensor.hpp:851-857 `slice(adims)`. -/
def slice (junk : Nat → α) (x : GT α) (ix : List Nat) : Res (GT α) := do
  let ds ← gvChunk x.dims ix.length (-1)
  let R ← new junk ds
  let t ← lead x ix
  let arr ← copyCells x.arr t (Cnine.asize R.dims) R.arr 0
  .ok { R with arr := arr }

/-- include/Gtensor.hpp:859-866 `set_slice(ix,x)`. -/
def setSlice (t : GT α) (ix : List Nat) (x : GT α) : Res (GT α) := do
  let o ← lead t ix
  let arr ← copyCells x.arr 0 x.asize t.arr o
  .ok { t with arr := arr }

/-! ### Elementwise operations -/

/-- include/Gtensor.hpp:884-890 `operator==`. -/
def eq [DecidableEq α] (x y : GT α) : Res Bool :=
  if y.asize ≠ x.asize then .ok false
  else loop x.asize true fun i b => if b then do
      let u ← Res.get x.arr i
      let v ← Res.get y.arr i
      .ok (decide (u = v))
    else .ok false

/-- include/Gtensor.hpp:915-920, 938-966: a new tensor from the entries of one (`times`, `elementwise_pow`, `abs`, `conj`, `real`). -/
def map {β : Type} (junk : Nat → β) (f : α → β) (x : GT α) : Res (GT β) := do
  let R ← new junk x.dims
  let arr ← loop x.asize R.arr fun i a => do
    let u ← Res.get x.arr i
    wr a i (f u)
  .ok { R with arr := arr }

/-- include/Gtensor.hpp:892-898, 907-936, 1074-1083: a new tensor from the entries of two (`plus`, `minus`, `elementwise_times`, `elementwise_divide`,
`operator-`). -/
def zip (junk : Nat → α) (f : α → α → α) (x y : GT α) : Res (GT α) := do
  Res.assrt (x.asize = y.asize)
  let R ← new junk x.dims
  let arr ← loop x.asize R.arr fun i a => do
    let u ← Res.get x.arr i
    let v ← Res.get y.arr i
    wr a i (f u v)
  .ok { R with arr := arr }

/-- include/Gtensor.hpp:1145-1161 `odot`, `odotc`: as `zip` with a test of the dims. -/
def odot (junk : Nat → α) (f : α → α → α) (x y : GT α) : Res (GT α) := do
  Res.assrt (x.dims = y.dims)
  let R ← new junk x.dims
  let arr ← loop x.asize R.arr fun i a => do
    let u ← Res.get x.arr i
    let v ← Res.get y.arr i
    wr a i (f u v)
  .ok { R with arr := arr }

/-- include/Gtensor.hpp:1163-1170 `ReLU`: not implemented, but a tensor is returned. -/
def relu (junk : Nat → α) (x : GT α) : Res (GT α) := new junk x.dims

/-- include/Gtensor.hpp:1177-1193, 1215-1253 in-place with another tensor (`+=`, `-=`, `*=`, `add`, `addc`, `subc`, `subtract`). -/
def update (f : α → α → α) (t x : GT α) : Res (GT α) := do
  Res.assrt (t.asize = x.asize)
  let arr ← loop t.asize t.arr fun i a => do
    let u ← Res.get a i
    let v ← Res.get x.arr i
    wr a i (f u v)
  .ok { t with arr := arr }

/-- include/Gtensor.hpp:1201-1209 in-place with a number (`*=`, `/=`). -/
def scale (f : α → α) (t : GT α) : Res (GT α) := do
  let arr ← loop t.asize t.arr fun i a => do
    let u ← Res.get a i
    wr a i (f u)
  .ok { t with arr := arr }

/-- include/Gtensor.hpp:1255-1267 `add_odot`, `add_odotc`. -/
def addOdot [Add α] (f : α → α → α) (t x y : GT α) : Res (GT α) := do
  Res.assrt (x.asize = t.asize)
  Res.assrt (y.asize = t.asize)
  let arr ← loop t.asize t.arr fun i a => do
    let u ← Res.get a i
    let v ← Res.get x.arr i
    let w ← Res.get y.arr i
    wr a i (u + f v w)
  .ok { t with arr := arr }

/-- A sum `for(int i=0; i<n; i++) t+=f(i)` from 0, as in include/Gtensor.hpp:1088. -/
def total [Zero α] [Add α] (n : Nat) (f : Nat → Res α) : Res α :=
  loop n 0 fun i t => do
    let v ← f i
    .ok (t + v)

/-- include/Gtensor.hpp:1085-1091 `norm2`. -/
def norm2 [Zero α] [Add α] [Mul α] (x : GT α) : Res α :=
  total x.asize fun i => do
    let u ← Res.get x.arr i
    .ok (u * u)

/-- include/Gtensor.hpp:1102-1122 `inp`, and `inpc` (with `f` the conjugate). -/
def inp [Zero α] [Add α] [Mul α] (f : α → α) (x y : GT α) : Res α := do
  Res.assrt (x.asize = y.asize)
  total x.asize fun i => do
    let u ← Res.get x.arr i
    let v ← Res.get y.arr i
    .ok (u * f v)

/-- include/Gtensor.hpp:1124-1132 `diff2`. -/
def diff2 [Zero α] [Add α] [Sub α] [Mul α] (x y : GT α) : Res α := do
  Res.assrt (y.dims = x.dims)
  Res.assrt (y.asize = x.asize)
  total x.asize fun i => do
    let u ← Res.get x.arr i
    let v ← Res.get y.arr i
    .ok ((u - v) * (u - v))

/-! ### Products -/

/-- include/Gtensor.hpp:970-996 `operator*`. -/
def mul [Zero α] [Add α] [Mul α] (junk : Nat → α) (x y : GT α) : Res (GT α) := do
  Res.assrt (x.dims.length = 2)
  let d0 ← Res.get x.dims 0
  let d1 ← Res.get x.dims 1
  let e0 ← Res.get y.dims 0
  Res.assrt (d1 = e0)
  if y.dims.length = 1 then do
    let R ← new junk [d0]
    loop d0 R fun i R => do
      let t ← total d1 fun p => do
        let u ← getInts x [i, p]
        let v ← getInts y [p]
        .ok (u * v)
      setInts R [i] t
  else do
    Res.assrt (y.dims.length = 2)
    let e1 ← Res.get y.dims 1
    let R ← new junk [d0, e1]
    loop d0 R fun i R => loop e1 R fun j R => do
      let t ← total d1 fun p => do
        let u ← getInts x [i, p]
        let v ← getInts y [p, j]
        .ok (u * v)
      setInts R [i, j] t

/-- include/Gtensor.hpp:1029-1047 `matmul_TA`, and 1049-1067 `contract_0_0`. -/
def mulTA [Zero α] [Add α] [Mul α] (junk : Nat → α) (x y : GT α) : Res (GT α) := do
  Res.assrt (x.dims.length = 2)
  Res.assrt (y.dims.length = 2)
  let P ← Res.get x.dims 0
  let e0 ← Res.get y.dims 0
  Res.assrt (P = e0)
  let dim0 ← Res.get x.dims 1
  let dim1 ← Res.get y.dims 1
  let R ← new junk [dim0, dim1]
  loop dim0 R fun i R => loop dim1 R fun j R => do
    let t ← total P fun p => do
      let u ← getInts x [p, i]
      let v ← getInts y [p, j]
      .ok (u * v)
    setInts R [i, j] t

/-- `v[i]` for an index that may be negative, as `x.strides[x.k-2]` in include/Gtensor.hpp:1277. -/
def geti {β : Type} (l : List β) (i : Int) : Res β := if i < 0 then .ub else Res.get l i.toNat

/-- Division of `int`s that are not negative, as in include/Gtensor.hpp:1271-1272. -/
def idiv (a b : Nat) : Res Nat := if b = 0 then .ub else .ok (a / b)

/-- include/Gtensor.hpp:1269-1288 `add_matmul(x,y)`. -/
def addMatmul [Zero α] [Add α] [Mul α] (t x y : GT α) : Res (GT α) := do
  Res.assrt ((t.k : Int) = x.k + y.k - 2)
  let K ← geti x.dims ((x.k : Int) - 1)
  let I ← idiv x.asize K
  let y0 ← Res.get y.dims 0
  let J ← idiv y.asize y0
  Res.assrt (y0 = K)
  Res.assrt (t.asize = I * J)
  let istridex ← geti x.strides ((x.k : Int) - 2)
  let istride ← geti t.strides ((x.k : Int) - 2)
  let pstridey ← Res.get y.strides 0
  let arr ← loop I t.arr fun i a => loop J a fun j a => do
    let s ← total K fun p => do
      let u ← Res.get x.arr (i * istridex + p)
      let v ← Res.get y.arr (p * pstridey + j)
      .ok (u * v)
    let o ← Res.get a (istride * i + j)
    wr a (istride * i + j) (o + s)
  .ok { t with arr := arr }

/-- include/Gtensor.hpp:1290-1309 `add_matmul_AH(g,y)`; `cj` is the conjugate. -/
def addMatmulAH [Zero α] [Add α] [Mul α] (cj : α → α) (t g y : GT α) : Res (GT α) := do
  Res.assrt ((g.k : Int) = t.k + y.k - 2)
  let K ← geti t.dims ((t.k : Int) - 1)
  let I ← idiv t.asize K
  let y0 ← Res.get y.dims 0
  let J ← idiv y.asize y0
  Res.assrt (y0 = K)
  Res.assrt (g.asize = I * J)
  let istridex ← geti t.strides ((t.k : Int) - 2)
  let istride ← geti g.strides ((t.k : Int) - 2)
  let pstridey ← Res.get y.strides 0
  let arr ← loop I t.arr fun i a => loop K a fun p a => do
    let s ← total J fun j => do
      let u ← Res.get g.arr (istride * i + j)
      let v ← Res.get y.arr (p * pstridey + j)
      .ok (u * cj v)
    let o ← Res.get a (istridex * i + p)
    wr a (istridex * i + p) (o + s)
  .ok { t with arr := arr }

/-- include/Gtensor.hpp:1311-1330 `add_matmul_HA(x,g)`. -/
def addMatmulHA [Zero α] [Add α] [Mul α] (cj : α → α) (t x g : GT α) : Res (GT α) := do
  Res.assrt ((g.k : Int) = x.k + t.k - 2)
  let K ← geti x.dims ((x.k : Int) - 1)
  let I ← idiv x.asize K
  let t0 ← Res.get t.dims 0
  let J ← idiv t.asize t0
  Res.assrt (t0 = K)
  Res.assrt (g.asize = I * J)
  let istridex ← geti x.strides ((x.k : Int) - 2)
  let istride ← geti g.strides ((x.k : Int) - 2)
  let pstridey ← Res.get t.strides 0
  let arr ← loop K t.arr fun p a => loop J a fun j a => do
    let s ← total I fun i => do
      let u ← Res.get x.arr (i * istridex + p)
      let v ← Res.get g.arr (istride * i + j)
      .ok (cj u * v)
    let o ← Res.get a (p * pstridey + j)
    wr a (p * pstridey + j) (o + s)
  .ok { t with arr := arr }

/-! ### Printing -/

/-- include/Gtensor.hpp:1497-1656: the nested loops over all axes; the entries in the order in which they are printed. -/
def printLoop (x : GT α) : List Nat → List Nat → Res (List α)
  | [], ix => do
    let v ← at' x ix
    .ok [v]
  | d :: ds, ix => loop d [] fun i out => do
    let r ← printLoop x ds (ix ++ [i])
    .ok (out ++ r)

/-- include/Gtensor.hpp:1497-1656 `str()` with `eps=0`: the entries that are printed.  For seven axes (1614-1637) the condition of the sixth loop has
`i4` instead of `i5`: once entered the loop never ends, and reads behind the array.  Other numbers of axes print nothing. -/
def str (x : GT α) : Res (List α) :=
  match x.k with
  | 1 => match x.dims with
    | d :: _ => loop d [] fun j out => do
      let v ← Res.get x.arr j
      .ok (out ++ [v])
    | [] => .ub
  | 7 => match x.dims with
    | d0 :: d1 :: d2 :: d3 :: d4 :: d5 :: _ => if 0 < d0 ∧ 0 < d1 ∧ 0 < d2 ∧ 0 < d3 ∧ 0 < d4 ∧ 0 < d5 then .ub else .ok []
    | _ => .ub
  | 2 => printLoop x x.dims []
  | 3 => printLoop x x.dims []
  | 4 => printLoop x x.dims []
  | 5 => printLoop x x.dims []
  | 6 => printLoop x x.dims []
  | _ => .ok []

end GT

end Cnine
