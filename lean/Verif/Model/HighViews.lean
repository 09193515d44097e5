import Verif.Model.RView3
import Verif.Model.CView
import Verif.Model.Gtensor

/-!
# Model of views with four to seven axes, views of any rank, and accessors

tensor_views/Rtensor4_view.hpp to Rtensor7_view.hpp, Ctensor5_view.hpp, Ctensor6_view.hpp, RtensorView.hpp, CtensorView.hpp, CtensorD_view.hpp,
tensors/TensorAccessor.hpp, tensors/FixedTensorAccessor.hpp.

The fields `n0,n1,…` and `s0,s1,…` of the classes are lists here, so that one definition stands for the functions `slice0,slice1,…` of all the classes,
which differ only in the position of an axis; where a class differs there is a definition of its own.  Sizes, strides and indices are natural
numbers without bound, except in the accessors.  Everything is on the CPU, and `MultiLoop` runs its rounds one after another.
-/

namespace Cnine

variable {α : Type}

/-- tensor_views/Rtensor4_view.hpp:31-33, tensor_views/Rtensor5_view.hpp:31-33, tensor_views/Rtensor6_view.hpp:31-33, tensor_views/Rtensor7_view.hpp:31-33, tensor_views/RtensorView.hpp:36-38. -/
structure HV where
  arr : Nat
  ns : List Nat
  ss : List Nat
deriving DecidableEq

/-- tensor_views/Ctensor5_view.hpp:30-33, tensor_views/Ctensor6_view.hpp:29-32, CtensorView.hpp, tensor_views/CtensorD_view.hpp:31-34. -/
structure CHV where
  arr : Nat
  arrc : Nat
  ns : List Nat
  ss : List Nat
deriving DecidableEq

/-- The first `k` entries of a vector, read one by one, as in tensor_views/Rtensor4_view.hpp:50-57. -/
def firstK (k : Nat) (l : List Nat) : Res (List Nat) := if k ≤ l.length then .ok (l.take k) else .ub

/-- A nest of loops, one for each axis, as in tensor_views/Rtensor4_view.hpp:104-108. -/
def nestLoop {σ : Type} : List Nat → σ → (List Nat → σ → Res σ) → Res σ
  | [], s, f => f [] s
  | n :: ns, s, f => loop n s fun i s => nestLoop ns s fun ix s => f (i :: ix) s

/-- `s0*i0+s1*i1+…`, as in tensor_views/Rtensor4_view.hpp:76. -/
def hoffs : List Nat → List Nat → Nat
  | s :: ss, i :: is => s * i + hoffs ss is
  | _, _ => 0

/-- Sizes in which the axes `k` and `k+1` are multiplied, as in tensor_views/Rtensor4_view.hpp:217. -/
def hmerge : List Nat → Nat → List Nat
  | a :: b :: l, 0 => a * b :: l
  | a :: l, k + 1 => a :: hmerge l k
  | l, _ => l

namespace HV

/-- The constructors from `Gdims` and `Gstrides`: `want` is the number in the check, `k` the number of axes.
tensor_views/Rtensor4_view.hpp:47-58 (4,4), tensor_views/Rtensor5_view.hpp:48-61 (5,5), tensor_views/Rtensor6_view.hpp:48-63 (6,6), tensor_views/Rtensor7_view.hpp:48-65 (6,7). -/
def ofDims (want k arr : Nat) (dims strides : List Nat) : Res HV := do
  Res.assrt (dims.length = want)
  let ns ← firstK k dims
  let ss ← firstK k strides
  .ok ⟨arr, ns, ss⟩

/-- tensor_views/Rtensor4_view.hpp:47-58. -/
def of4 (arr : Nat) (dims strides : List Nat) : Res HV := ofDims 4 4 arr dims strides
/-- tensor_views/Rtensor5_view.hpp:48-61. -/
def of5 (arr : Nat) (dims strides : List Nat) : Res HV := ofDims 5 5 arr dims strides
/-- tensor_views/Rtensor6_view.hpp:48-63. -/
def of6 (arr : Nat) (dims strides : List Nat) : Res HV := ofDims 6 6 arr dims strides
/-- tensor_views/Rtensor7_view.hpp:48-65: the check is for six axes. -/
def of7 (arr : Nat) (dims strides : List Nat) : Res HV := ofDims 6 7 arr dims strides

/-- The cell of an entry, tensor_views/Rtensor4_view.hpp:76, tensor_views/Rtensor5_view.hpp:79, tensor_views/Rtensor6_view.hpp:81, tensor_views/Rtensor7_view.hpp:79. -/
def cell (v : HV) (ix : List Nat) : Nat := v.arr + hoffs v.ss ix

/-- `operator()`, tensor_views/Rtensor4_view.hpp:73-77, tensor_views/Rtensor5_view.hpp:76-80, tensor_views/Rtensor6_view.hpp:78-82, tensor_views/Rtensor7_view.hpp:76-80. -/
def get (v : HV) (ix : List Nat) (m : Buf α) : Res α := m.read (v.cell ix)

/-- `set`, tensor_views/Rtensor4_view.hpp:79-83, tensor_views/Rtensor5_view.hpp:82-86, tensor_views/Rtensor6_view.hpp:84-88, tensor_views/Rtensor7_view.hpp:82-86. -/
def set (v : HV) (ix : List Nat) (x : α) (m : Buf α) : Res (Buf α) := m.write (v.cell ix) x

/-- `inc`, tensor_views/Rtensor4_view.hpp:85-89, tensor_views/Rtensor5_view.hpp:88-92, tensor_views/Rtensor6_view.hpp:90-94, tensor_views/Rtensor7_view.hpp:88-92. -/
def inc [Add α] (v : HV) (ix : List Nat) (x : α) (m : Buf α) : Res (Buf α) := incCell m (v.cell ix) x

/-- `block`, tensor_views/Rtensor4_view.hpp:91-93, tensor_views/Rtensor5_view.hpp:94-97, tensor_views/Rtensor6_view.hpp:96-99, tensor_views/Rtensor7_view.hpp:94-97. -/
def block (v : HV) (ix ms : List Nat) : HV := ⟨v.arr + hoffs v.ss ix, ms, v.ss⟩

/-- `add(y)`, tensor_views/Rtensor4_view.hpp:99-109, tensor_views/Rtensor5_view.hpp:102-114, tensor_views/Rtensor6_view.hpp:105-119, tensor_views/Rtensor7_view.hpp:103-119. -/
def add [Add α] (r y : HV) (m : Buf α) : Res (Buf α) := do
  Res.assrt (y.ns = r.ns)
  nestLoop r.ns m fun ix m => do
    let a ← y.get ix m
    r.inc ix a m

/-- `slice0(i)`, `slice1(i)`, …, tensor_views/Rtensor4_view.hpp:188-210, tensor_views/Rtensor5_view.hpp:205-233, tensor_views/Rtensor6_view.hpp:224-258,
tensor_views/Rtensor7_view.hpp:224-264. -/
def slice (v : HV) (k i : Nat) : HV := ⟨v.arr + i * v.ss.getD k 0, v.ns.eraseIdx k, v.ss.eraseIdx k⟩

/-- `slice01(i,j)`, `slice02(i,j)`, …, the axes `k` and `l` with `k < l`, tensor_views/Rtensor4_view.hpp:225-271, tensor_views/Rtensor5_view.hpp:252-330. -/
def slice2 (v : HV) (k l i j : Nat) : HV :=
  ⟨v.arr + i * v.ss.getD k 0 + j * v.ss.getD l 0, (v.ns.eraseIdx l).eraseIdx k, (v.ss.eraseIdx l).eraseIdx k⟩

/-- `fuse01()`, `fuse12()`, …, tensor_views/Rtensor4_view.hpp:212-222, tensor_views/Rtensor5_view.hpp:235-249, tensor_views/Rtensor6_view.hpp:260-277,
tensor_views/Rtensor7_view.hpp:266-288. -/
def fuse (v : HV) (k : Nat) : HV := ⟨v.arr, hmerge v.ns k, v.ss.eraseIdx k⟩

/-- `split0(x,i,j)`, `split1(x,i,j)`, …, tensor_views/Rtensor4_view.hpp:308-321, tensor_views/Rtensor5_view.hpp:367-385, tensor_views/Rtensor6_view.hpp:398-421,
tensor_views/Rtensor7_view.hpp:405-433. -/
def split (v : HV) (k i j : Nat) : Res HV := do
  Res.assrt (i * j = v.ns.getD k 0)
  let s := v.ss.getD k 0
  .ok ⟨v.arr, v.ns.take k ++ i :: j :: v.ns.drop (k + 1), v.ss.take k ++ s * j :: s :: v.ss.drop (k + 1)⟩

/-- A view with three axes as an `Rtensor3_view`, the type of tensor_views/Rtensor4_view.hpp:188. -/
def v3 (v : HV) : RV3 := ⟨v.arr, v.ns.getD 0 0, v.ns.getD 1 0, v.ns.getD 2 0, v.ss.getD 0 0, v.ss.getD 1 0, v.ss.getD 2 0⟩

/-- An `Rtensor3_view` as a view here, tensor_views/Rtensor3_view.hpp:34-37. -/
def of3 (v : RV3) : HV := ⟨v.arr, [v.n0, v.n1, v.n2], [v.s0, v.s1, v.s2]⟩

/-- An `Rtensor2_view` as a view here, tensor_views/Rtensor2_view.hpp:34-37. -/
def of2 (v : RV2) : HV := ⟨v.arr, [v.n0, v.n1], [v.s0, v.s1]⟩

/-- The first of two axes as an `Rtensor2_view`, tensor_views/Rtensor2_view.hpp:34-37. -/
def v2 (v : HV) : RV2 := ⟨v.arr, v.ns.getD 0 0, v.ns.getD 1 0, v.ss.getD 0 0, v.ss.getD 1 0⟩

/-- `reduce0_destructively()` to `reduce3_destructively()` of a view with `3+e` axes: with three axes tensor_views/Rtensor3_view.hpp:353-395, with more
tensor_views/Rtensor4_view.hpp:136-150, tensor_views/Rtensor5_view.hpp:141-155, tensor_views/Rtensor6_view.hpp:146-160, tensor_views/Rtensor7_view.hpp:146-160.  There is none for later axes. -/
def reduce [Zero α] [Add α] : Nat → Nat → HV → Buf α → Res (Buf α)
  | 0, 0, v, m => v.v3.reduce0 m
  | 0, 1, v, m => v.v3.reduce1 m
  | 0, _, v, m => v.v3.reduce2 m
  | e + 1, 0, v, m => reduce e 0 (v.fuse 1) m
  | e + 1, 1, v, m => reduce e 1 (v.fuse 2) m
  | e + 1, 2, v, m => reduce e 1 (v.fuse 0) m
  | e + 1, _, v, m => reduce e 2 (v.fuse 0) m

/-- `reduce0_destructively_into(r)` to `reduce3_destructively_into(r)` of a view with `4+e` axes, tensor_views/Rtensor4_view.hpp:115-133 (there `r.add` is
the one of `Rtensor3_view`, the same nest of loops), tensor_views/Rtensor5_view.hpp:120-138, tensor_views/Rtensor6_view.hpp:125-143, tensor_views/Rtensor7_view.hpp:125-143. -/
def reduceInto [Zero α] [Add α] (e k : Nat) (v r : HV) (m : Buf α) : Res (Buf α) := do
  let m ← reduce (e + 1) k v m
  if e = 0 then r.v3.add (v.slice k 0).v3 m else r.add (v.slice k 0) m

/-- The fused source of a broadcast: `Rtensor3_view::fuse01()`, `fuse12()` check that the view is regular (tensor_views/Rtensor3_view.hpp:461-469),
the functions of the other classes do not. -/
def fuseSrc (x : HV) (k : Nat) : Res HV :=
  if x.ns.length = 3 then do
    let w ← if k = 0 then x.v3.fuse01 else x.v3.fuse12
    .ok (of2 w)
  else .ok (x.fuse k)

/-- `broadcast0(x)`, `broadcast1(x)`, … of a view with `3+e` axes: with three axes tensor_views/Rtensor3_view.hpp:401-418, with more
tensor_views/Rtensor4_view.hpp:156-182, tensor_views/Rtensor5_view.hpp:161-199, tensor_views/Rtensor6_view.hpp:166-218. -/
def broadcast : Nat → Nat → HV → HV → Buf α → Res (Buf α)
  | 0, 0, v, x, m => v.v3.broadcast0 x.v2 m
  | 0, 1, v, x, m => v.v3.broadcast1 x.v2 m
  | 0, _, v, x, m => v.v3.broadcast2 x.v2 m
  | e + 1, 0, v, x, m => do
    Res.assrt (x.ns = v.ns.eraseIdx 0)
    let y ← x.fuseSrc (e + 1)
    broadcast e 0 (v.fuse (e + 2)) y m
  | e + 1, 1, v, x, m => do
    Res.assrt (x.ns = v.ns.eraseIdx 1)
    let y ← x.fuseSrc (e + 1)
    broadcast e 1 (v.fuse (e + 2)) y m
  | e + 1, k + 2, v, x, m => do
    Res.assrt (x.ns = v.ns.eraseIdx (k + 2))
    let y ← x.fuseSrc 0
    broadcast e (k + 1) (v.fuse 0) y m

/-- `gtensor()`: `dims` are the sizes of the new tensor.  tensor_views/Rtensor4_view.hpp:278-286, tensor_views/Rtensor5_view.hpp:336-345, tensor_views/Rtensor6_view.hpp:366-376
(all the sizes), tensor_views/Rtensor7_view.hpp:376-387 (the first six). -/
def gtensorOf (dims : List Nat) (junk : Nat → α) (v : HV) (m : Buf α) : Res (GT α) := do
  let R ← GT.new junk dims
  nestLoop v.ns R fun ix R => do
    let a ← v.get ix m
    R.setInts ix a

/-- tensor_views/Rtensor4_view.hpp:278-286, tensor_views/Rtensor5_view.hpp:336-345, tensor_views/Rtensor6_view.hpp:366-376. -/
def gtensor (junk : Nat → α) (v : HV) (m : Buf α) : Res (GT α) := gtensorOf v.ns junk v m

/-- tensor_views/Rtensor7_view.hpp:376-387. -/
def gtensor7 (junk : Nat → α) (v : HV) (m : Buf α) : Res (GT α) := gtensorOf (v.ns.take 6) junk v m

/-! ### Views of any rank, tensor_views/RtensorView.hpp -/

/-- include/Gstrides.hpp:187-202 `remove(j)`: of a single stride there remains 1. -/
def strideRemove (l : List Nat) (j : Nat) : Res (List Nat) := do
  Res.assrt (j < l.length)
  .ok (if l.length = 1 then [1] else l.eraseIdx j)

/-- tensor_views/RtensorView.hpp:237-263 `slice0(i)` to `slice3(i)`: the offset is computed from the sizes. -/
def gslice (v : HV) (k i : Nat) : Res HV := do
  let d ← Res.get v.ns k
  let ns ← gvRemove v.ns k
  let ss ← strideRemove v.ss k
  .ok ⟨v.arr + i * d, ns, ss⟩

/-- tensor_views/RtensorView.hpp:265-283 `slice01(i0,i1)`, `slice012(i0,i1,i2)`: the first axes, offset from the sizes. -/
def gsliceLead (v : HV) (is : List Nat) : Res HV := do
  Res.need (is.length ≤ v.ns.length ∧ is.length ≤ v.ss.length)
  .ok ⟨v.arr + hoffs v.ns is, v.ns.drop is.length, v.ss.drop is.length⟩

/-- tensor_views/RtensorView.hpp:290-297 `fuse(i)`; a negative `i` counts from the end. -/
def gfuse (v : HV) (i : Int) : Res HV := do
  let k : Int := if i < 0 then v.ns.length + i else i
  Res.need (0 ≤ k)
  let ns ← gvRemove v.ns k.toNat
  let a ← Res.get v.ns k.toNat
  let b ← Res.get v.ns (k.toNat + 1)
  let ns ← gvSet ns k.toNat (a * b)
  let ss ← strideRemove v.ss k.toNat
  .ok ⟨v.arr, ns, ss⟩

/-- tensor_views/RtensorView.hpp:299-318: `d=dims.remove(k+1); d[k]*=dims[f]; s=strides.remove(k)`. -/
def gfusePair (k f : Nat) (v : HV) : Res HV := do
  let ns ← gvRemove v.ns (k + 1)
  let a ← Res.get ns k
  let b ← Res.get v.ns f
  let ns ← gvSet ns k (a * b)
  let ss ← strideRemove v.ss k
  .ok ⟨v.arr, ns, ss⟩

/-- tensor_views/RtensorView.hpp:299-304. -/
def gfuse01 (v : HV) : Res HV := gfusePair 0 1 v
/-- tensor_views/RtensorView.hpp:306-311. -/
def gfuse12 (v : HV) : Res HV := gfusePair 1 2 v
/-- tensor_views/RtensorView.hpp:313-318: the factor is `dims[1]`. -/
def gfuse23 (v : HV) : Res HV := gfusePair 2 1 v

/-- tensor_views/RtensorView.hpp:224-231 `matricize(n)`, `1 ≤ n ≤ ndims()`: strides `{strides[n-1],1}`. -/
def matricize (v : HV) (n : Nat) : Res RV2 := do
  Res.need (1 ≤ n ∧ n ≤ v.ns.length)
  let s ← Res.get v.ss (n - 1)
  .ok ⟨v.arr, (v.ns.take n).prod, (v.ns.drop n).prod, s, 1⟩

/-- tensor_views/RtensorView.hpp:219-222 `flatten()`: all entries with the last stride. -/
def flatten (v : HV) : Res RV1 := do
  let s ← Res.get v.ss (v.ss.length - 1)
  .ok ⟨v.arr, v.ns.prod, s⟩

/-- tensor_views/RtensorView.hpp:320-323 `fuse_all_but_last_two()`, with include/Gdims.hpp:198-207 and include/Gstrides.hpp:180-185, for at least
three axes. -/
def fuseLeading (v : HV) : Res RV3 := do
  Res.need (3 ≤ v.ns.length ∧ v.ns.length = v.ss.length)
  let n := v.ns.length - 2
  .ok (v3 ⟨v.arr, (v.ns.take n).prod :: v.ns.drop n, v.ss.drop (n - 1)⟩)

end HV

namespace CHV

/-- The constructors from `Gdims` and `Gstrides`: tensor_views/Ctensor5_view.hpp:53-66 (5,5), tensor_views/Ctensor6_view.hpp:53-68 (5,6). -/
def ofDims (want k arr coffs : Nat) (dims strides : List Nat) : Res CHV := do
  Res.assrt (dims.length = want)
  let ns ← firstK k dims
  let ss ← firstK k strides
  .ok ⟨arr, arr + coffs, ns, ss⟩

/-- tensor_views/Ctensor5_view.hpp:53-66. -/
def of5 (arr coffs : Nat) (dims strides : List Nat) : Res CHV := ofDims 5 5 arr coffs dims strides
/-- tensor_views/Ctensor6_view.hpp:53-68: the check is for five axes. -/
def of6 (arr coffs : Nat) (dims strides : List Nat) : Res CHV := ofDims 5 6 arr coffs dims strides

/-- `operator()`, tensor_views/Ctensor5_view.hpp:85-88, tensor_views/Ctensor6_view.hpp:87-90, tensor_views/CtensorView.hpp:80-110, tensor_views/CtensorD_view.hpp:67-95. -/
def get (v : CHV) (ix : List Nat) (m : Buf α) : Res (Cx α) := getC (v.arr + hoffs v.ss ix) (v.arrc + hoffs v.ss ix) m

/-- `set`, tensor_views/Ctensor5_view.hpp:90-94, tensor_views/Ctensor6_view.hpp:92-96, tensor_views/CtensorView.hpp:116-135 (up to three axes), tensor_views/CtensorD_view.hpp:101-127. -/
def set (v : CHV) (ix : List Nat) (x : Cx α) (m : Buf α) : Res (Buf α) := setC (v.arr + hoffs v.ss ix) (v.arrc + hoffs v.ss ix) x m

/-- `inc`, tensor_views/Ctensor5_view.hpp:96-100, tensor_views/Ctensor6_view.hpp:98-102, tensor_views/CtensorView.hpp:148-174, tensor_views/CtensorD_view.hpp:133-159. -/
def inc [Add α] (v : CHV) (ix : List Nat) (x : Cx α) (m : Buf α) : Res (Buf α) := incC (v.arr + hoffs v.ss ix) (v.arrc + hoffs v.ss ix) x m

/-- tensor_views/CtensorView.hpp:137-142 `set(i0,i1,i2,i3,x)`: `i3` is not used. -/
def setFour (v : CHV) (i0 i1 i2 _i3 : Nat) (x : Cx α) (m : Buf α) : Res (Buf α) := v.set [i0, i1, i2] x m

/-- `slice0(i)`, `slice1(i)`, …, tensor_views/Ctensor5_view.hpp:169-187, tensor_views/Ctensor6_view.hpp:170-188, tensor_views/CtensorD_view.hpp:196-199 (the first axis). -/
def slice (v : CHV) (k i : Nat) : CHV :=
  ⟨v.arr + i * v.ss.getD k 0, v.arrc + i * v.ss.getD k 0, v.ns.eraseIdx k, v.ss.eraseIdx k⟩

/-- tensor_views/Ctensor6_view.hpp:190-192 `slice5(i)`: the imaginary part moves by `i*s4`. -/
def slice5of6 (v : CHV) (i : Nat) : CHV :=
  ⟨v.arr + i * v.ss.getD 5 0, v.arrc + i * v.ss.getD 4 0, v.ns.eraseIdx 5, v.ss.eraseIdx 5⟩

/-- `fuse01()`, …, tensor_views/Ctensor5_view.hpp:190-204, tensor_views/Ctensor6_view.hpp:195-213. -/
def fuse (v : CHV) (k : Nat) : CHV := ⟨v.arr, v.arrc, hmerge v.ns k, v.ss.eraseIdx k⟩

/-- `as_real()`, tensor_views/Ctensor5_view.hpp:72-75, tensor_views/Ctensor6_view.hpp:74-77, tensor_views/CtensorView.hpp:67-70. -/
def asReal (v : CHV) : Res HV := do
  Res.assrt (v.arrc = v.arr + 1)
  .ok ⟨v.arr, v.ns ++ [2], v.ss ++ [1]⟩

/-- tensor_views/Ctensor6_view.hpp:219-229 `gtensor()`. -/
def gtensor (junk : Nat → Cx α) (v : CHV) (m : Buf α) : Res (GT (Cx α)) := do
  let R ← GT.new junk v.ns
  nestLoop v.ns R fun ix R => do
    let a ← v.get ix m
    R.setInts ix a

/-- tensor_views/CtensorView.hpp:190-216 `slice0(i)` to `slice3(i)`: the offset is computed from the sizes. -/
def gslice (v : CHV) (k i : Nat) : Res CHV := do
  let d ← Res.get v.ns k
  let ns ← gvRemove v.ns k
  let ss ← HV.strideRemove v.ss k
  .ok ⟨v.arr + i * d, v.arrc + i * d, ns, ss⟩

/-- include/Gindex.hpp:88-90, the entries after the first: `(a%strides[i-1])/strides[i]`. -/
def digits (a : Nat) : Nat → List Nat → Res (List Nat)
  | _, [] => .ok []
  | p, s :: ss => do
    Res.need (p ≠ 0 ∧ s ≠ 0)
    let r ← digits a s ss
    .ok (a % p / s :: r)

/-- include/Gindex.hpp:85-92 `Gindex(size_t a, vector<int> strides)`. -/
def ofStrides (a : Nat) : List Nat → Res (List Nat)
  | [] => .ub
  | s :: ss => do
    let r ← digits a s ss
    Res.need (s ≠ 0)
    .ok (a / s :: r)

/-- `gtensor()` with an index made from `f*i`: tensor_views/CtensorView.hpp:232-238 (`f=1`), tensor_views/CtensorD_view.hpp:286-292 (`f=2`). -/
def gtensorBy (f : Nat) (junk : Nat → Cx α) (v : CHV) (m : Buf α) : Res (GT (Cx α)) := do
  let R ← GT.new junk v.ns
  let arr ← loop R.asize R.arr fun i a => do
    let ix ← ofStrides (f * i) v.ss
    let x ← v.get ix m
    GT.wr a i x
  .ok { R with arr := arr }

/-- `fuse0X()`, tensor_views/CtensorView.hpp:222-226, tensor_views/CtensorD_view.hpp:189-193. -/
def fuse0X (v : CHV) : Res CV2 :=
  match v.ns, v.ss with
  | [], _ => .ok ⟨v.arr, v.arrc, 1, 1, 0, 0⟩
  | [n], s :: _ => .ok ⟨v.arr, v.arrc, n, 1, s, 0⟩
  | n :: _, s :: ss => do
    let l := (s :: ss).getLastD 0
    Res.need (l ≠ 0)
    .ok ⟨v.arr, v.arrc, n, s / l, s, l⟩
  | _, [] => .ub

end CHV

/-- tensor_views/Ctensor5_view.hpp:210-232 `batched_cmvprod(r,x,y,lambda)`: the arguments of the calls of `lambda`, in order; the sizes of the matrices are left
to `lambda`. -/
def batchedCalls (r x y : CHV) : Res (List (CHV × CHV × CHV)) := do
  let n (v : CHV) (k : Nat) : Nat := v.ns.getD k 0
  Res.assrt (n x 0 = n r 0 ∧ n r 0 = n y 0)
  Res.assrt (n x 1 = n r 1)
  Res.assrt (n x 2 = n y 1)
  loop (n r 0) [] fun b l =>
    loop (n x 1) l fun j l =>
      loop (n x 2) l fun k l =>
        .ok (l ++ [((r.slice 0 b).slice 0 j, ((x.slice 0 b).slice 0 j).slice 0 k, (y.slice 0 b).slice 0 k)])

/-- include/Gstrides.hpp:59-65: five strides from five numbers, and 67-74: six numbers in a vector of length 5. -/
def strides6 (i0 i1 i2 i3 i4 i5 : Nat) : Res (List Nat) :=
  Res.forM [i0, i1, i2, i3, i4, i5].zipIdx (List.replicate 5 0) fun l p => gvSet l p.2 p.1

/-! ### Accessors -/

/-- The conversion of a stride (`size_t`) to `int`, as in tensors/TensorAccessor.hpp:72, with 32 bits and as all compilers do it: modulo 2^32. -/
def toInt32 (n : Nat) : Int := if n % 2 ^ 32 < 2 ^ 31 then (n % 2 ^ 32 : Nat) else (n % 2 ^ 32 : Nat) - 2 ^ 32

/-- A result of `int` arithmetic, undefined outside 32 bits, as in tensors/TensorAccessor.hpp:76. -/
def int32 (z : Int) : Res Int := if -2 ^ 31 ≤ z ∧ z < 2 ^ 31 then .ok z else .ub

/-- tensors/TensorAccessor.hpp:31, 66-67, 90-92, 116-119, 144-148, 174-179, 206-212. -/
structure TAcc where
  arr : Nat
  ss : List Int

namespace TAcc

/-- The constructor of `TensorAccessor<k>`, `k = 1…6`: tensors/TensorAccessor.hpp:69-73, 94-99, 121-127, 150-157, 181-189, 214-223. -/
def new (k : Nat) (v : View) : Res TAcc := do
  Res.assrt (v.dims.length = k)
  let ss ← firstK k v.strides
  .ok ⟨v.off, ss.map toInt32⟩

/-- The constructor of `TensorAccessor<0>`, tensors/TensorAccessor.hpp:33-37. -/
def new0 (v : View) : Res TAcc := do
  Res.assrt (v.dims.length = 0 ∨ v.dims.length = 1)
  Res.assrt (v.dims.length = 1 → v.dims.getD 0 0 = 1)
  .ok ⟨v.off, []⟩

/-- The rest of the sum `s0*i0+s1*i1+…` in `int`, tensors/TensorAccessor.hpp:102, 130, 160, 192, 226. -/
def sum : Int → List Int → List Nat → Res Int
  | t, s :: ss, i :: is => do
    let p ← int32 (s * i)
    let t ← int32 (t + p)
    sum t ss is
  | t, _, _ => .ok t

/-- The cell of `operator()` and `set`, tensors/TensorAccessor.hpp:39-57 (k=0), 75-81, 101-107, 129-135, 159-165, 191-197, 225-231.  A cell before the start
of memory is undefined. -/
def cell (a : TAcc) (ix : List Nat) : Res Nat := do
  let t ← sum 0 a.ss ix
  Res.need (0 ≤ (a.arr : Int) + t)
  .ok ((a.arr : Int) + t).toNat

end TAcc

/-- tensors/FixedTensorAccessor.hpp:82-331: the strides `ss` are template arguments, the constructor from a view looks only at the number of axes. -/
def fixedNew (k : Nat) (v : View) : Res Nat := do
  Res.assrt (v.dims.length = k)
  .ok v.off

/-- tensors/FixedTensorAccessor.hpp:48-52, no axes or one of any size. -/
def fixedNew0 (v : View) : Res Nat := do
  Res.assrt (v.dims.length = 0 ∨ v.dims.length = 1)
  .ok v.off

/-- tensors/FixedTensorAccessor.hpp:106-112, 154-160, 207-213, 246-252, 285-291, 324-330: the cell of `operator()` and `set` (without the bound of `int`). -/
def fixedCell (arr : Nat) (ss ix : List Nat) : Nat := arr + hoffs ss ix

/-- tensors/FixedTensorAccessor.hpp:38-41, 91-94, 139-142, 192-195, 236-239, 275-278, 314-317: `asize` cells become 0. -/
def fixedZero [Zero α] (arr asize : Nat) (m : Buf α) : Res (Buf α) := loop asize m fun i m => m.write (arr + i) 0

end Cnine
