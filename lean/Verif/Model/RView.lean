import Verif.Model.Elem
import Mathlib.Algebra.Group.Defs

/-!
# Model of the strided vector and matrix views

tensor_views/Rtensor1_view.hpp and tensor_views/Rtensor2_view.hpp (the types `view1_of`/`view2_of` of
tensors/TensorView.hpp return), and the part of tensor_views/tensor1_view.hpp that differs from them.

CPU branches (`dev==0`).  `arr` is a cell number of the one memory; sizes and strides are natural
numbers (the code has `int`; negative strides are not modelled).  The arithmetic is an arbitrary
algebraic structure instead of `float`.  `CNINE_CHECK_RANGE` is compiled out.
-/

namespace Cnine

variable {α : Type _}

/-- tensor_views/Rtensor1_view.hpp:50-56: `arr`, `n0`, `s0`. -/
structure RV1 where
  arr : Nat
  n0 : Nat
  s0 : Nat
deriving DecidableEq, Repr

/-- tensor_views/Rtensor2_view.hpp `arr`, `n0`, `n1`, `s0`, `s1`. -/
structure RV2 where
  arr : Nat
  n0 : Nat
  n1 : Nat
  s0 : Nat
  s1 : Nat
deriving DecidableEq, Repr

/-- `arr[c]+=t`. -/
def incCell [Add α] (m : Buf α) (c : Nat) (t : α) : Res (Buf α) := do
  let a ← m.read c
  m.write c (a + t)

/-- include/Cnine_base_helpers.hpp:50-55 `stdadd(beg,end,dest,c)`. -/
def stdAddC [Add α] [Mul α] (c : α) (m : Buf α) (src n dst : Nat) : Res (Buf α) :=
  loop n m (fun i m => updCell (fun a b => a + c * b) m (dst + i) (src + i))

namespace RV1

/-- tensor_views/Rtensor1_view.hpp:118-124 `operator()(i0)`: the cell `arr[s0*i0]`. -/
def cell (v : RV1) (i : Nat) : Nat := v.arr + v.s0 * i

/-- tensor_views/Rtensor1_view.hpp:105-108 `is_regular`. -/
def isRegular (v : RV1) : Bool := v.s0 = 1

/-- tensor_views/Rtensor1_view.hpp:147-149 `block(i0,m0)`. -/
def block (v : RV1) (i0 m0 : Nat) : RV1 := ⟨v.arr + i0 * v.s0, m0, v.s0⟩

/-- tensor_views/Rtensor1_view.hpp:91-99 `operator=`. -/
def assign (r x : RV1) (m : Buf α) : Res (Buf α) := do
  Res.assrt (r.n0 = x.n0)
  loop r.n0 m fun i m => do
    let v ← m.read (x.cell i)
    m.write (r.arr + i * r.s0) v

/-- tensor_views/Rtensor1_view.hpp:140-145 `sum()` (and 215-220 `reduce()`). -/
def sum [Zero α] [Add α] (v : RV1) (m : Buf α) : Res α :=
  loop v.n0 (0 : α) fun i t => do
    let a ← m.read (v.arr + i * v.s0)
    .ok (t + a)

/-- tensor_views/Rtensor1_view.hpp:155-159 `set(v)`. -/
def fill (r : RV1) (v : α) (m : Buf α) : Res (Buf α) :=
  loop r.n0 m fun i m => m.write (r.arr + i * r.s0) v

/-- tensor_views/Rtensor1_view.hpp:161-171 `set(x)`. -/
def set (r x : RV1) (m : Buf α) : Res (Buf α) := do
  Res.assrt (x.n0 = r.n0)
  if r.isRegular && x.isRegular then stdCopy m x.arr r.n0 r.arr
  else loop r.n0 m fun i m => do
    let v ← m.read (x.cell i)
    m.write (r.cell i) v

/-- tensor_views/Rtensor1_view.hpp:177-181 `add(v)`. -/
def addConst [Add α] (r : RV1) (v : α) (m : Buf α) : Res (Buf α) :=
  loop r.n0 m fun i m => incCell m (r.arr + i * r.s0) v

/-- tensor_views/Rtensor1_view.hpp:183-193 `add(x)` (and 207-209 `operator+=`). -/
def add [Add α] (r x : RV1) (m : Buf α) : Res (Buf α) := do
  Res.assrt (x.n0 = r.n0)
  if r.isRegular && x.isRegular then stdAdd (· + ·) m x.arr r.n0 r.arr
  else loop r.n0 m fun i m => do
    let v ← m.read (x.cell i)
    incCell m (r.cell i) v

/-- tensor_views/Rtensor1_view.hpp:195-205 `add(x,c)`. -/
def addScaled [Add α] [Mul α] (r x : RV1) (c : α) (m : Buf α) : Res (Buf α) := do
  Res.assrt (x.n0 = r.n0)
  if r.isRegular && x.isRegular then
    loop r.n0 m fun i m => updCell (fun a b => a + c * b) m (r.arr + i) (x.arr + i)
  else loop r.n0 m fun i m => do
    let v ← m.read (x.cell i)
    incCell m (r.cell i) (c * v)

/-- tensor_views/Rtensor1_view.hpp:226-230 `broadcast(v)`. -/
def broadcast (r : RV1) (v : α) (m : Buf α) : Res (Buf α) := do
  Res.assrt r.isRegular
  loop r.n0 m fun i m => m.write (r.arr + i) v

/-- tensor_views/Rtensor1_view.hpp:236-246 `add_ReLU(x,alpha)`.  The sign is taken from
`x.arr[i*x.s0]` but the value from `x.arr[i*s0]`, with the stride of the target.  `pos` is `>0`. -/
def addReLU [One α] [Zero α] [Sub α] [Add α] [Mul α] (pos : α → Bool) (r x : RV1) (alpha : α) (m : Buf α) :
    Res (Buf α) := do
  Res.assrt (r.n0 = x.n0)
  let a := 1 - alpha
  loop r.n0 m fun i m => do
    let s ← m.read (x.arr + i * x.s0)
    let v ← m.read (x.arr + i * r.s0)
    incCell m (r.arr + i * r.s0) (((if pos s then 1 else 0) * a + alpha) * v)

/-- tensor_views/Rtensor1_view.hpp:248-259 `add_ReLU_back(g,x,alpha)`. -/
def addReLUback [One α] [Zero α] [Sub α] [Add α] [Mul α] (pos : α → Bool) (r g x : RV1) (alpha : α) (m : Buf α) :
    Res (Buf α) := do
  Res.assrt (r.n0 = g.n0)
  Res.assrt (r.n0 = x.n0)
  let a := 1 - alpha
  loop r.n0 m fun i m => do
    let s ← m.read (x.arr + i * x.s0)
    let v ← m.read (g.arr + i * g.s0)
    incCell m (r.arr + i * r.s0) (((if pos s then 1 else 0) * a + alpha) * v)

/-- tensor_views/tensor1_view.hpp:174-184 `tensor1_view::add(x)`: the strided branch (line 181) calls
`set` instead of `inc`. -/
def tAdd [Add α] (r x : RV1) (m : Buf α) : Res (Buf α) := do
  Res.assrt (x.n0 = r.n0)
  if r.isRegular && x.isRegular then stdAdd (· + ·) m x.arr r.n0 r.arr
  else loop r.n0 m fun i m => do
    let v ← m.read (x.cell i)
    m.write (r.cell i) v

end RV1

namespace RV2

/-- tensor_views/Rtensor2_view.hpp:117-123 `operator()(i0,i1)`: the cell `arr[s0*i0+s1*i1]`. -/
def cell (v : RV2) (i j : Nat) : Nat := v.arr + (v.s0 * i + v.s1 * j)

/-- tensor_views/Rtensor2_view.hpp:97-101 `is_regular`. -/
def isRegular (v : RV2) : Bool := v.s1 = 1 && v.s0 = v.n1

/-- tensor_views/Rtensor2_view.hpp:103-107 `is_transpose`. -/
def isTranspose (v : RV2) : Bool := v.s1 = v.n0 && v.s0 = 1

/-- tensor_views/Rtensor2_view.hpp:564-566 `transp`. -/
def transp (v : RV2) : RV2 := ⟨v.arr, v.n1, v.n0, v.s1, v.s0⟩

/-- tensor_views/Rtensor2_view.hpp:559-562 `diag`. -/
def diag (v : RV2) : Res RV1 := do
  Res.assrt (v.n0 = v.n1)
  .ok ⟨v.arr, v.n0, v.s0 + v.s1⟩

/-- tensor_views/Rtensor2_view.hpp:568-571 `slice0(i)`. -/
def slice0 (v : RV2) (i : Nat) : RV1 := ⟨v.arr + i * v.s0, v.n1, v.s1⟩

/-- tensor_views/Rtensor2_view.hpp:573-576 `slice1(i)`. -/
def slice1 (v : RV2) (i : Nat) : RV1 := ⟨v.arr + i * v.s1, v.n0, v.s0⟩

/-- tensor_views/Rtensor2_view.hpp:578-580 `fuse01()`. -/
def fuse01 (v : RV2) : RV1 := ⟨v.arr, v.n0 * v.n1, v.s1⟩

/-- tensor_views/Rtensor2_view.hpp:139-144 `block(i0,i1,m0,m1)`, sizes given. -/
def block (v : RV2) (i0 i1 m0 m1 : Nat) : RV2 := ⟨v.arr + i0 * v.s0 + i1 * v.s1, m0, m1, v.s0, v.s1⟩

/-- tensor_views/Rtensor2_view.hpp:146-150 `cols(i1,m1)`, size given. -/
def cols (v : RV2) (i1 m1 : Nat) : RV2 := ⟨v.arr + i1 * v.s1, v.n0, m1, v.s0, v.s1⟩

/-- tensor_views/Rtensor2_view.hpp:594-596 `rows(offs,n)`. -/
def rows (v : RV2) (offs n : Nat) : RV2 := ⟨v.arr + offs * v.s0, n, v.n1, v.s0, v.s1⟩

/-- tensor_views/Rtensor2_view.hpp:630-633 `split0(x,i,j)`. -/
def split0 (x : RV1) (i j : Nat) : Res RV2 := do
  Res.assrt (i * j = x.n0)
  .ok ⟨x.arr, i, j, x.s0 * j, x.s0⟩

/-- tensor_views/Rtensor2_view.hpp:635-637 `repeat0(x,n)`. -/
def repeat0 (x : RV1) (n : Nat) : RV2 := ⟨x.arr, n, x.n0, 0, x.s0⟩

/-- tensor_views/Rtensor2_view.hpp:639-641 `repeat1(x,n)`. -/
def repeat1 (x : RV1) (n : Nat) : RV2 := ⟨x.arr, x.n0, n, x.s0, 0⟩

/-- tensor_views/Rtensor2_view.hpp:156-161 `set(v)`. -/
def fill (r : RV2) (v : α) (m : Buf α) : Res (Buf α) :=
  loop r.n0 m fun i m => loop r.n1 m fun j m => m.write (r.arr + (i * r.s0 + j * r.s1)) v

/-- tensor_views/Rtensor2_view.hpp:163-174 `set(x)`. -/
def set (r x : RV2) (m : Buf α) : Res (Buf α) := do
  Res.assrt (x.n0 = r.n0)
  Res.assrt (x.n1 = r.n1)
  if r.isRegular && x.isRegular then stdCopy m x.arr (r.n0 * r.n1) r.arr
  else loop x.n0 m fun i m => loop x.n1 m fun j m => do
    let v ← m.read (x.cell i j)
    m.write (r.cell i j) v

/-- tensor_views/Rtensor2_view.hpp:180-185 `add(v)`. -/
def addConst [Add α] (r : RV2) (v : α) (m : Buf α) : Res (Buf α) :=
  loop r.n0 m fun i m => loop r.n1 m fun j m => incCell m (r.arr + (i * r.s0 + j * r.s1)) v

/-- tensor_views/Rtensor2_view.hpp:187-199 `add(x)`. -/
def add [Add α] (r x : RV2) (m : Buf α) : Res (Buf α) := do
  Res.assrt (x.n0 = r.n0)
  Res.assrt (x.n1 = r.n1)
  if x.n0 * x.n1 = 0 then .ok m
  else if r.isRegular && x.isRegular then stdAdd (· + ·) m x.arr (r.n0 * r.s0) r.arr
  else loop x.n0 m fun i m => loop x.n1 m fun j m => do
    let v ← m.read (x.cell i j)
    incCell m (r.cell i j) v

/-- tensor_views/Rtensor2_view.hpp:201-214 `add(x,c)`. -/
def addScaled [Add α] [Mul α] (r x : RV2) (c : α) (m : Buf α) : Res (Buf α) := do
  Res.assrt (x.n0 = r.n0)
  Res.assrt (x.n1 = r.n1)
  if x.n0 * x.n1 = 0 then .ok m
  else if r.isRegular && x.isRegular then stdAddC c m x.arr (r.n0 * r.s0) r.arr
  else loop r.n0 m fun i m => loop r.n1 m fun j m => do
    let v ← m.read (x.cell i j)
    incCell m (r.cell i j) (c * v)

/-- `float t=0; for(i<n) t+=arr[p(i)]*arr[q(i)]`, the inner loop of the products below. -/
def dotLoop [Zero α] [Add α] [Mul α] (n : Nat) (p q : Nat → Nat) (m : Buf α) : Res α :=
  loop n (0 : α) fun i t => do
    let a ← m.read (p i)
    let b ← m.read (q i)
    .ok (t + a * b)

/-- tensor_views/Rtensor2_view.hpp:238-264 `add_matmul_AA(x,y)`. -/
def addMatmulAA [Zero α] [Add α] [Mul α] (r x y : RV2) (m : Buf α) : Res (Buf α) := do
  Res.assrt (x.n0 = r.n0)
  Res.assrt (y.n1 = r.n1)
  Res.assrt (y.n0 = x.n1)
  loop r.n0 m fun a m => loop r.n1 m fun b m => do
    let t ← dotLoop x.n1 (fun i => x.cell a i) (fun i => y.cell i b) m
    incCell m (r.cell a b) t

/-- tensor_views/Rtensor2_view.hpp:266-293 `add_matmul_AT(x,y)` (295-297 `add_matmul_AH` is the same). -/
def addMatmulAT [Zero α] [Add α] [Mul α] (r x y : RV2) (m : Buf α) : Res (Buf α) := do
  Res.assrt (x.n0 = r.n0)
  Res.assrt (y.n0 = r.n1)
  Res.assrt (y.n1 = x.n1)
  loop r.n0 m fun a m => loop r.n1 m fun b m => do
    let t ← dotLoop x.n1 (fun i => x.cell a i) (fun i => y.cell b i) m
    incCell m (r.cell a b) t

/-- tensor_views/Rtensor2_view.hpp:299-326 `add_matmul_TA(x,y)`. -/
def addMatmulTA [Zero α] [Add α] [Mul α] (r x y : RV2) (m : Buf α) : Res (Buf α) := do
  Res.assrt (x.n1 = r.n0)
  Res.assrt (y.n0 = x.n0)
  Res.assrt (y.n1 = r.n1)
  loop r.n0 m fun a m => loop r.n1 m fun b m => do
    let t ← dotLoop x.n0 (fun i => x.cell i a) (fun i => y.cell i b) m
    incCell m (r.cell a b) t

/-- tensor_views/Rtensor2_view.hpp:220-236 `add_mprod(x,y)`: three layouts; otherwise
`CNINE_UNIMPL()`, which only prints (include/Cnine_base.hpp:57). -/
def addMprod [Zero α] [Add α] [Mul α] (r x y : RV2) (m : Buf α) : Res (Buf α) :=
  if r.isRegular && (x.isRegular && y.isRegular) then addMatmulAA r x y m
  else if r.isRegular && (x.isRegular && y.isTranspose) then addMatmulAT r x y.transp m
  else if r.isRegular && (x.isTranspose && y.isRegular) then addMatmulTA r x.transp y m
  else .ok m

/-- tensor_views/Rtensor2_view.hpp:329-339 `add_mprod_to(y,x)`. -/
def addMprodTo [Zero α] [Add α] [Mul α] (A : RV2) (y x : RV1) (m : Buf α) : Res (Buf α) := do
  Res.assrt (x.n0 = A.n1)
  Res.assrt (y.n0 = A.n0)
  loop A.n0 m fun a m => do
    let t ← dotLoop A.n1 (fun b => A.cell a b) (fun b => x.cell b) m
    incCell m (y.cell a) t

/-- tensor_views/Rtensor2_view.hpp:644-655 `add_matmul_Ax_to(r,A,x)`. -/
def addMatmulAxTo [Zero α] [Add α] [Mul α] (r : RV1) (A : RV2) (x : RV1) (m : Buf α) : Res (Buf α) := do
  Res.assrt (A.n0 = r.n0)
  Res.assrt (A.n1 = x.n0)
  loop r.n0 m fun a m => do
    let t ← dotLoop x.n0 (fun b => A.cell a b) (fun b => x.cell b) m
    incCell m (r.cell a) t

/-- tensor_views/Rtensor2_view.hpp:342-349 `add_outer(x,y)`. -/
def addOuter [Add α] [Mul α] (r : RV2) (x y : RV1) (m : Buf α) : Res (Buf α) := do
  Res.assrt (r.n0 = x.n0)
  Res.assrt (r.n1 = y.n0)
  loop x.n0 m fun i m => loop y.n0 m fun j m => do
    let a ← m.read (x.cell i)
    let b ← m.read (y.cell j)
    incCell m (r.cell i j) (a * b)

/-- tensor_views/Rtensor2_view.hpp:355-368 `sum()`. -/
def sum [Zero α] [Add α] (v : RV2) (m : Buf α) : Res α :=
  if v.isRegular then
    loop (v.n0 * v.n1) (0 : α) fun i t => do
      let a ← m.read (v.arr + i)
      .ok (t + a)
  else loop v.n0 (0 : α) fun i t => loop v.n1 t fun j t => do
    let a ← m.read (v.cell i j)
    .ok (t + a)

/-- `float t=0; for(i<n) t+=arr[p(i)]`, the inner loop of the sums below. -/
def sumLoop [Zero α] [Add α] (n : Nat) (p : Nat → Nat) (m : Buf α) : Res α :=
  loop n (0 : α) fun i t => do
    let a ← m.read (p i)
    .ok (t + a)

/-- tensor_views/Rtensor2_view.hpp:381-388 `sum1_into(r)`, the non-const overload. -/
def sum1Into [Zero α] [Add α] (v : RV2) (r : RV1) (m : Buf α) : Res (Buf α) := do
  Res.assrt (r.n0 = v.n0)
  loop v.n0 m fun i m => do
    let t ← sumLoop v.n1 (fun j => v.cell i j) m
    incCell m (r.cell i) t

/-- tensor_views/Rtensor2_view.hpp:424-433 `sum1_into(r) const`: asserts `r.n0==n1`. -/
def sum1IntoConst [Zero α] [Add α] (v : RV2) (r : RV1) (m : Buf α) : Res (Buf α) := do
  Res.assrt (r.n0 = v.n1)
  loop v.n0 m fun i m => do
    let t ← sumLoop v.n1 (fun j => v.cell i j) m
    incCell m (r.cell i) t

/-- tensor_views/Rtensor2_view.hpp:394-407 `sum0_into(r)`. -/
def sum0Into [Zero α] [Add α] (v : RV2) (r : RV1) (m : Buf α) : Res (Buf α) := do
  Res.assrt (r.n0 = v.n1)
  loop v.n1 m fun j m => do
    let t ← sumLoop v.n0 (fun i => v.cell i j) m
    incCell m (r.cell j) t

/-- tensor_views/Rtensor2_view.hpp:409-422 `avg0_into(r)`; `dv t n` stands for `t/n`. -/
def avg0Into [Zero α] [Add α] (dv : α → Nat → α) (v : RV2) (r : RV1) (m : Buf α) : Res (Buf α) := do
  Res.assrt (r.n0 = v.n1)
  loop v.n1 m fun j m => do
    let t ← sumLoop v.n0 (fun i => v.cell i j) m
    incCell m (r.cell j) (dv t v.n0)

/-- tensor_views/Rtensor2_view.hpp:450 `while(a<n0) a*=2;` with a bound on the number of rounds. -/
def dblUp (n : Nat) : Nat → Nat → Nat
  | 0, a => a
  | k + 1, a => if a < n then dblUp n k (a * 2) else a

/-- tensor_views/Rtensor2_view.hpp:452-453 `for(;a>0;a/=2) stdadd(arr+a*s0,arr+2*a*s0,arr);` with a
bound on the number of rounds. -/
def halve [Add α] (v : RV2) : Nat → Nat → Buf α → Res (Buf α)
  | 0, _, m => .ok m
  | k + 1, a, m =>
    if 0 < a then do
      let m ← stdAdd (· + ·) m (v.arr + a * v.s0) (a * v.s0) v.arr
      halve v k (a / 2) m
    else .ok m

/-- tensor_views/Rtensor2_view.hpp:447-462 `reduce0_destructively()`.  (The pointer difference
`n0*s0-a*s0` is not negative: `a≤n0`, except `n0=0` where `a=0`.) -/
def reduce0 [Zero α] [Add α] (v : RV2) (m : Buf α) : Res (Buf α) :=
  if v.isRegular then do
    let a := dblUp v.n0 v.n0 1 / 2
    let m ← stdAdd (· + ·) m (v.arr + a * v.s0) (v.n0 * v.s0 - a * v.s0) v.arr
    halve v v.n0 (a / 2) m
  else loop v.n1 m fun j m => do
    let t ← sumLoop v.n0 (fun i => v.cell i j) m
    m.write (v.cell 0 j) t

/-- tensor_views/Rtensor2_view.hpp:477-479 `reduce1_destructively()`. -/
def reduce1 [Zero α] [Add α] (v : RV2) (m : Buf α) : Res (Buf α) := v.transp.reduce0 m

/-- tensor_views/Rtensor2_view.hpp:435-439 `reduce0_destructively_into(r)`. -/
def reduce0Into [Zero α] [Add α] (v : RV2) (r : RV1) (m : Buf α) : Res (Buf α) := do
  Res.assrt (r.n0 = v.n1)
  let m ← v.reduce0 m
  r.add (v.slice0 0) m

/-- tensor_views/Rtensor2_view.hpp:441-445 `reduce1_destructively_into(r)`. -/
def reduce1Into [Zero α] [Add α] (v : RV2) (r : RV1) (m : Buf α) : Res (Buf α) := do
  Res.assrt (r.n0 = v.n0)
  let m ← v.reduce1 m
  r.add (v.slice1 0) m

/-- tensor_views/Rtensor2_view.hpp:491-493 `for(; a<=n0/2; a*=2) std::copy(arr,arr+a*n1,arr+a*n1);`
with a bound on the number of rounds; returns the memory and the final `a`. -/
def spread (v : RV2) : Nat → Nat → Buf α → Res (Buf α × Nat)
  | 0, a, m => .ok (m, a)
  | k + 1, a, m =>
    if a ≤ v.n0 / 2 then do
      let m ← stdCopy m v.arr (a * v.n1) (v.arr + a * v.n1)
      spread v k (a * 2) m
    else .ok (m, a)

/-- tensor_views/Rtensor2_view.hpp:485-508 `broadcast0(x)`. -/
def broadcast0 (v : RV2) (x : RV1) (m : Buf α) : Res (Buf α) := do
  Res.assrt (x.n0 = v.n1)
  if v.isRegular && x.isRegular then do
    let m ← stdCopy m x.arr v.n1 v.arr
    let (m, a) ← spread v v.n0 1 m
    if a < v.n0 then stdCopy m v.arr ((v.n0 - a) * v.n1) (v.arr + a * v.n1) else .ok m
  else loop v.n1 m fun j m => do
    let t ← m.read (x.cell j)
    loop v.n0 m fun i m => m.write (v.cell i j) t

/-- tensor_views/Rtensor2_view.hpp:510-519 `broadcast1(x)`. -/
def broadcast1 (v : RV2) (x : RV1) (m : Buf α) : Res (Buf α) := do
  Res.assrt (x.n0 = v.n0)
  loop v.n0 m fun i m => do
    let t ← m.read (x.cell i)
    loop v.n1 m fun j m => m.write (v.cell i j) t

/-- tensor_views/Rtensor2_view.hpp:534-553 `add_broadcast0(x,alpha)`: `alpha` is not used. -/
def addBroadcast0 [Add α] (v : RV2) (x : RV1) (_alpha : α) (m : Buf α) : Res (Buf α) := do
  Res.assrt (x.n0 = v.n1)
  if x.s0 = 1 ∧ v.s1 = 1 then
    loop v.n0 m fun i m => stdAdd (· + ·) m x.arr v.n1 (v.arr + i * v.s0)
  else loop v.n1 m fun j m => do
    let t ← m.read (x.cell j)
    loop v.n0 m fun i m => incCell m (v.cell i j) t

end RV2
end Cnine
