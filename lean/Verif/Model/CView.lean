import Verif.Model.RView3

/-!
# Model of the complex views

tensor_views/Ctensor1_view.hpp, Ctensor2_view.hpp, Ctensor3_view.hpp, Ctensor4_view.hpp and tensor_views/BasicCtensorProducts.hpp,
CPU branches (`dev==0`).  Real and imaginary parts are cells of one float memory, reached from the two pointers `arr` and `arrc`
with the same offset, so the parts of one view, or of two views, may share cells.  Sizes and strides are natural numbers (the code has
`int`); `flip` of Ctensor3_view, which makes negative strides, has integer strides at the end of this file.  The arithmetic is
an arbitrary algebraic structure instead of `float`.  `CNINE_UNIMPL` only prints.  `CNINE_CHECK_DEV3` is trivial on the CPU.
-/

namespace Cnine

variable {α : Type}

/-- `complex<float>`: real and imaginary part. -/
@[ext] structure Cx (α : Type) where
  re : α
  im : α
deriving DecidableEq, Repr

namespace Cx

/-- `complex<float> t=0`. -/
instance [Zero α] : Zero (Cx α) := ⟨⟨0, 0⟩⟩

/-- `operator+` of `complex<float>`. -/
instance [Add α] : Add (Cx α) := ⟨fun a b => ⟨a.re + b.re, a.im + b.im⟩⟩

/-- `operator*` of `complex<float>` (without the special treatment of infinities). -/
instance [Add α] [Sub α] [Mul α] : Mul (Cx α) := ⟨fun a b => ⟨a.re * b.re - a.im * b.im, a.re * b.im + a.im * b.re⟩⟩

/-- `std::conj`. -/
def conj [Neg α] (a : Cx α) : Cx α := ⟨a.re, -a.im⟩

/-- `operator*` of `complex<float>` and `float`. -/
def scale [Mul α] (c : α) (a : Cx α) : Cx α := ⟨c * a.re, c * a.im⟩

end Cx

/-- `complex<float>(arr[t],arrc[t])`; `p` and `q` are the cells `arr+t` and `arrc+t`. -/
def getC (p q : Nat) (m : Buf α) : Res (Cx α) := do
  let a ← m.read p
  let b ← m.read q
  .ok ⟨a, b⟩

/-- `arr[t]=std::real(x); arrc[t]=std::imag(x);`. -/
def setC (p q : Nat) (x : Cx α) (m : Buf α) : Res (Buf α) := do
  let m ← m.write p x.re
  m.write q x.im

/-- `arr[t]+=std::real(x); arrc[t]+=std::imag(x);`. -/
def incC [Add α] (p q : Nat) (x : Cx α) (m : Buf α) : Res (Buf α) := do
  let m ← incCell m p x.re
  incCell m q x.im

/-- `complex<float> t=0; for(i<n) t+=term(i);`, the inner loop of the products below. -/
def csum [Zero α] [Add α] (n : Nat) (term : Nat → Buf α → Res (Cx α)) (m : Buf α) : Res (Cx α) :=
  loop n (0 : Cx α) fun i t => do
    let a ← term i m
    .ok (t + a)

/-- tensor_views/Ctensor1_view.hpp:29-33 `arr`, `arrc`, `n0`, `s0` (`n1`, `s1` are never used). -/
structure CV1 where
  arr : Nat
  arrc : Nat
  n0 : Nat
  s0 : Nat
deriving DecidableEq, Repr

/-- tensor_views/Ctensor2_view.hpp:51-55. -/
structure CV2 where
  arr : Nat
  arrc : Nat
  n0 : Nat
  n1 : Nat
  s0 : Nat
  s1 : Nat
deriving DecidableEq, Repr

/-- tensor_views/Ctensor3_view.hpp:37-41. -/
structure CV3 where
  arr : Nat
  arrc : Nat
  n0 : Nat
  n1 : Nat
  n2 : Nat
  s0 : Nat
  s1 : Nat
  s2 : Nat
deriving DecidableEq, Repr

/-- tensor_views/Ctensor4_view.hpp `arr`, `arrc`, `n0`…`n3`, `s0`…`s3`. -/
structure CV4 where
  arr : Nat
  arrc : Nat
  n0 : Nat
  n1 : Nat
  n2 : Nat
  n3 : Nat
  s0 : Nat
  s1 : Nat
  s2 : Nat
  s3 : Nat
deriving DecidableEq, Repr

namespace CV1

/-- The offset `t` of tensor_views/Ctensor1_view.hpp:72, 77, 83. -/
def off (v : CV1) (i : Nat) : Nat := v.s0 * i

/-- tensor_views/Ctensor1_view.hpp:71-74 `operator()(i0)`. -/
def get (v : CV1) (i : Nat) (m : Buf α) : Res (Cx α) := getC (v.arr + v.off i) (v.arrc + v.off i) m

/-- tensor_views/Ctensor1_view.hpp:76-80 `set(i0,x)`. -/
def set (v : CV1) (i : Nat) (x : Cx α) (m : Buf α) : Res (Buf α) := setC (v.arr + v.off i) (v.arrc + v.off i) x m

/-- tensor_views/Ctensor1_view.hpp:82-86 `inc(i0,x)`. -/
def inc [Add α] (v : CV1) (i : Nat) (x : Cx α) (m : Buf α) : Res (Buf α) := incC (v.arr + v.off i) (v.arrc + v.off i) x m

/-- tensor_views/Ctensor1_view.hpp:92-96 `add(x)`. -/
def add [Add α] (r x : CV1) (m : Buf α) : Res (Buf α) := do
  Res.assrt (r.n0 = x.n0)
  loop r.n0 m fun i m => do
    let a ← x.get i m
    r.inc i a m

/-- tensor_views/Ctensor1_view.hpp:98-103 `add(x,c)` with a complex `c`. -/
def addC [Add α] [Sub α] [Mul α] (r x : CV1) (c : Cx α) (m : Buf α) : Res (Buf α) := do
  Res.assrt (r.n0 = x.n0)
  loop r.n0 m fun i m => do
    let a ← x.get i m
    r.inc i (a * c) m

/-- tensor_views/Ctensor1_view.hpp:109-114 `operator=`. -/
def assign (r x : CV1) (m : Buf α) : Res (Buf α) := do
  Res.assrt (r.n0 = x.n0)
  loop r.n0 m fun i m => do
    let a ← x.get i m
    r.set i a m

end CV1

namespace CV2

/-- The offset `t` of tensor_views/Ctensor2_view.hpp:111, 116, 122. -/
def off (v : CV2) (i j : Nat) : Nat := v.s0 * i + v.s1 * j

/-- tensor_views/Ctensor2_view.hpp:110-113 `operator()(i0,i1)`. -/
def get (v : CV2) (i j : Nat) (m : Buf α) : Res (Cx α) := getC (v.arr + v.off i j) (v.arrc + v.off i j) m

/-- tensor_views/Ctensor2_view.hpp:115-119 `set(i0,i1,x)`. -/
def set (v : CV2) (i j : Nat) (x : Cx α) (m : Buf α) : Res (Buf α) := setC (v.arr + v.off i j) (v.arrc + v.off i j) x m

/-- tensor_views/Ctensor2_view.hpp:121-125 `inc(i0,i1,x)`. -/
def inc [Add α] (v : CV2) (i j : Nat) (x : Cx α) (m : Buf α) : Res (Buf α) := incC (v.arr + v.off i j) (v.arrc + v.off i j) x m

/-- tensor_views/Ctensor2_view.hpp:127-132 `is_regular`. -/
def isRegular (v : CV2) : Bool := v.arrc = v.arr + 1 && v.s1 = 2 && v.s0 = v.s1 * v.n1

/-- tensor_views/Ctensor2_view.hpp:138-152 `add(x)`. -/
def add [Add α] (r x : CV2) (m : Buf α) : Res (Buf α) := do
  Res.assrt (x.n0 = r.n0)
  Res.assrt (x.n1 = r.n1)
  if x.n0 * x.n1 = 0 then .ok m
  else if r.isRegular && x.isRegular then stdAdd (· + ·) m x.arr (r.n0 * r.s0) r.arr
  else loop x.n0 m fun i m => loop x.n1 m fun j m => do
    let a ← x.get i j m
    r.inc i j a m

/-- tensor_views/Ctensor2_view.hpp:158-171 `add_matmul_AA(x,y)` (154-156 `add_matmul`, 189-191 `add_mprod`).  No size is compared. -/
def addMatmulAA [Zero α] [Add α] [Sub α] [Mul α] (r x y : CV2) (m : Buf α) : Res (Buf α) :=
  loop r.n0 m fun a m => loop r.n1 m fun b m => do
    let t ← csum x.n1 (fun i m => do
      let u ← x.get a i m
      let v ← y.get i b m
      .ok (u * v)) m
    r.inc a b t m

/-- tensor_views/Ctensor2_view.hpp:193-209 `add_matmul_AH(x,y)`. -/
def addMatmulAH [Zero α] [Add α] [Sub α] [Neg α] [Mul α] (r x y : CV2) (m : Buf α) : Res (Buf α) := do
  Res.assrt (x.n0 = r.n0)
  Res.assrt (y.n0 = r.n1)
  Res.assrt (y.n1 = x.n1)
  loop r.n0 m fun a m => loop r.n1 m fun b m => do
    let t ← csum x.n1 (fun i m => do
      let u ← x.get a i m
      let v ← y.get b i m
      .ok (u * v.conj)) m
    r.inc a b t m

/-- tensor_views/Ctensor2_view.hpp:227-243 `add_matmul_HA(x,y)`. -/
def addMatmulHA [Zero α] [Add α] [Sub α] [Neg α] [Mul α] (r x y : CV2) (m : Buf α) : Res (Buf α) := do
  Res.assrt (x.n1 = r.n0)
  Res.assrt (y.n1 = r.n1)
  Res.assrt (y.n0 = x.n0)
  loop r.n0 m fun a m => loop r.n1 m fun b m => do
    let t ← csum x.n0 (fun i m => do
      let u ← x.get i a m
      let v ← y.get i b m
      .ok (u.conj * v)) m
    r.inc a b t m

/-- tensor_views/Ctensor2_view.hpp:261-277 `add_matmul_NA(x,y)`: `x` is a real matrix. -/
def addMatmulNA [Zero α] [Add α] [Mul α] (r : CV2) (x : RV2) (y : CV2) (m : Buf α) : Res (Buf α) := do
  Res.assrt (x.n0 = r.n0)
  Res.assrt (y.n1 = r.n1)
  Res.assrt (y.n0 = x.n1)
  loop r.n0 m fun a m => loop r.n1 m fun b m => do
    let t ← csum x.n1 (fun i m => do
      let u ← m.read (x.cell a i)
      let v ← y.get i b m
      .ok (v.scale u)) m
    r.inc a b t m

/-- tensor_views/Ctensor2_view.hpp:329-331 `slice0(i)`. -/
def slice0 (v : CV2) (i : Nat) : CV1 := ⟨v.arr + i * v.s0, v.arrc + i * v.s0, v.n1, v.s1⟩

/-- tensor_views/Ctensor2_view.hpp:333-335 `slice1(i)`. -/
def slice1 (v : CV2) (i : Nat) : CV1 := ⟨v.arr + i * v.s1, v.arrc + i * v.s1, v.n0, v.s0⟩

/-- tensor_views/Ctensor2_view.hpp:337-339 `fuse01()`: the size is `n0*s0`. -/
def fuse01 (v : CV2) : CV1 := ⟨v.arr, v.arrc, v.n0 * v.s0, v.s1⟩

/-- tensor_views/Ctensor2_view.hpp:344-351 `transp()`. -/
def transp (v : CV2) : CV2 := ⟨v.arr, v.arrc, v.n1, v.n0, v.s1, v.s0⟩

/-- tensor_views/Ctensor2_view.hpp:380-383 `split0(x,i,j)`. -/
def split0 (x : CV1) (i j : Nat) : Res CV2 := do
  Res.assrt (i * j = x.n0)
  .ok ⟨x.arr, x.arrc, i, j, x.s0 * j, x.s0⟩

/-- tensor_views/Ctensor2_view.hpp:386-388 `unsqueeze0(x)`. -/
def unsqueeze0 (x : CV1) : CV2 := ⟨x.arr, x.arrc, 1, x.n0, x.s0 * x.n0, x.s0⟩

/-- tensor_views/Ctensor2_view.hpp:390-392 `unsqueeze1(x)`. -/
def unsqueeze1 (x : CV1) : CV2 := ⟨x.arr, x.arrc, x.n0, 1, x.s0, x.s0⟩

end CV2

/-- tensor_views/BasicCtensorProducts.hpp:105-124 `BasicCproduct_2_1`.  The arguments `xarr`, `xarrc`, `xs0`, … are those of `x`, `y` and
`r`, whose sizes are not looked at.  The sum so far is stored (not added) in every round of the inner loop. -/
def prod21 [Zero α] [Add α] [Sub α] [Mul α] (x y : CV3) (r : CV2) (n0 n1 n2 : Nat) (m : Buf α) : Res (Buf α) :=
  loop n0 m fun i0 m => loop n1 m fun i1 m => do
    let p ← loop n2 ((0 : Cx α), m) fun i2 p => do
      let u ← getC (x.arr + (i0 * x.s0 + i1 * x.s1 + i2 * x.s2)) (x.arrc + (i0 * x.s0 + i1 * x.s1 + i2 * x.s2)) p.2
      let v ← getC (y.arr + (i0 * y.s0 + i1 * y.s1 + i2 * y.s2)) (y.arrc + (i0 * y.s0 + i1 * y.s1 + i2 * y.s2)) p.2
      let t := p.1 + u * v
      let m ← setC (r.arr + (i0 * r.s0 + i1 * r.s1)) (r.arrc + (i0 * r.s0 + i1 * r.s1)) t p.2
      .ok (t, m)
    .ok p.2

/-- tensor_views/BasicCtensorProducts.hpp:54-73 `BasicCproduct_4`: the product is stored, not added. -/
def prod4 [Add α] [Sub α] [Mul α] (x y r : CV4) (n0 n1 n2 n3 : Nat) (m : Buf α) : Res (Buf α) :=
  loop n0 m fun i0 m => loop n1 m fun i1 m => loop n2 m fun i2 m => loop n3 m fun i3 m => do
    let u ← getC (x.arr + (i0 * x.s0 + i1 * x.s1 + i2 * x.s2 + i3 * x.s3)) (x.arrc + (i0 * x.s0 + i1 * x.s1 + i2 * x.s2 + i3 * x.s3)) m
    let v ← getC (y.arr + (i0 * y.s0 + i1 * y.s1 + i2 * y.s2 + i3 * y.s3)) (y.arrc + (i0 * y.s0 + i1 * y.s1 + i2 * y.s2 + i3 * y.s3)) m
    setC (r.arr + (i0 * r.s0 + i1 * r.s1 + i2 * r.s2 + i3 * r.s3)) (r.arrc + (i0 * r.s0 + i1 * r.s1 + i2 * r.s2 + i3 * r.s3)) (u * v) m

namespace CV3

/-- The offset `t` of tensor_views/Ctensor3_view.hpp:112, 117, 123. -/
def off (v : CV3) (i j k : Nat) : Nat := v.s0 * i + v.s1 * j + v.s2 * k

/-- tensor_views/Ctensor3_view.hpp:111-114 `operator()(i0,i1,i2)`. -/
def get (v : CV3) (i j k : Nat) (m : Buf α) : Res (Cx α) := getC (v.arr + v.off i j k) (v.arrc + v.off i j k) m

/-- tensor_views/Ctensor3_view.hpp:116-120 `set(i0,i1,i2,x)`. -/
def set (v : CV3) (i j k : Nat) (x : Cx α) (m : Buf α) : Res (Buf α) := setC (v.arr + v.off i j k) (v.arrc + v.off i j k) x m

/-- tensor_views/Ctensor3_view.hpp:122-126 `inc(i0,i1,i2,x)`. -/
def inc [Add α] (v : CV3) (i j k : Nat) (x : Cx α) (m : Buf α) : Res (Buf α) :=
  incC (v.arr + v.off i j k) (v.arrc + v.off i j k) x m

/-- tensor_views/Ctensor3_view.hpp:128-134 `is_regular`. -/
def isRegular (v : CV3) : Bool := v.arrc = v.arr + 1 && v.s2 = 2 && v.s1 = v.s2 * v.n2 && v.s0 = v.s1 * v.n1

/-- tensor_views/Ctensor3_view.hpp:152-166 `add(x)`: `n2` is not compared. -/
def add [Add α] (r x : CV3) (m : Buf α) : Res (Buf α) := do
  Res.assrt (x.n0 = r.n0)
  Res.assrt (x.n1 = r.n1)
  if x.n0 * x.n1 = 0 then .ok m
  else if r.isRegular && x.isRegular then stdAdd (· + ·) m x.arr (r.n0 * r.s0) r.arr
  else loop x.n0 m fun i m => loop x.n1 m fun j m => loop x.n2 m fun k m => do
    let a ← x.get i j k m
    r.inc i j k a m

/-- tensor_views/Ctensor3_view.hpp:170-188 `add_mix_1_0(x,y)`. -/
def addMix10 [Zero α] [Add α] [Sub α] [Mul α] (r x : CV3) (y : CV2) (m : Buf α) : Res (Buf α) := do
  Res.assrt (y.n0 = x.n1)
  Res.assrt (x.n0 = r.n0)
  Res.assrt (y.n1 = r.n1)
  Res.assrt (x.n2 = r.n2)
  loop r.n0 m fun a m => loop r.n1 m fun b m => loop r.n2 m fun c m => do
    let t ← csum x.n1 (fun i m => do
      let u ← x.get a i c m
      let v ← y.get i b m
      .ok (u * v)) m
    r.inc a b c t m

/-- tensor_views/Ctensor3_view.hpp:215-233 `add_mix_1_H(x,y)`. -/
def addMix1H [Zero α] [Add α] [Sub α] [Neg α] [Mul α] (r x : CV3) (y : CV2) (m : Buf α) : Res (Buf α) := do
  Res.assrt (y.n1 = x.n1)
  Res.assrt (x.n0 = r.n0)
  Res.assrt (y.n0 = r.n1)
  Res.assrt (x.n2 = r.n2)
  loop r.n0 m fun a m => loop r.n1 m fun b m => loop r.n2 m fun c m => do
    let t ← csum x.n1 (fun i m => do
      let u ← x.get a i c m
      let v ← y.get b i m
      .ok (u * v.conj)) m
    r.inc a b c t m

/-- tensor_views/Ctensor3_view.hpp:280-282 `slice0(i)`. -/
def slice0 (v : CV3) (i : Nat) : CV2 := ⟨v.arr + i * v.s0, v.arrc + i * v.s0, v.n1, v.n2, v.s1, v.s2⟩

/-- tensor_views/Ctensor3_view.hpp:284-286 `slice1(i)`. -/
def slice1 (v : CV3) (i : Nat) : CV2 := ⟨v.arr + i * v.s1, v.arrc + i * v.s1, v.n0, v.n2, v.s0, v.s2⟩

/-- tensor_views/Ctensor3_view.hpp:288-290 `slice2(i)`. -/
def slice2 (v : CV3) (i : Nat) : CV2 := ⟨v.arr + i * v.s2, v.arrc + i * v.s2, v.n0, v.n1, v.s0, v.s1⟩

/-- tensor_views/Ctensor3_view.hpp:292-294 `fuse01()`: the layout is not checked. -/
def fuse01 (v : CV3) : CV2 := ⟨v.arr, v.arrc, v.n0 * v.n1, v.n2, v.s1, v.s2⟩

/-- tensor_views/Ctensor3_view.hpp:296-298 `fuse12()`: the layout is not checked. -/
def fuse12 (v : CV3) : CV2 := ⟨v.arr, v.arrc, v.n0, v.n1 * v.n2, v.s0, v.s2⟩

/-- tensor_views/Ctensor3_view.hpp:253-255 `add_mix_2_0(x,y)`. -/
def addMix20 [Zero α] [Add α] [Sub α] [Mul α] (r x : CV3) (y : CV2) (m : Buf α) : Res (Buf α) :=
  r.fuse01.addMatmulAA x.fuse01 y m

/-- tensor_views/Ctensor3_view.hpp:257-259 `add_mix_2_H(x,y)`. -/
def addMix2H [Zero α] [Add α] [Sub α] [Neg α] [Mul α] (r x : CV3) (y : CV2) (m : Buf α) : Res (Buf α) :=
  r.fuse01.addMatmulAH x.fuse01 y m

/-- tensor_views/Ctensor3_view.hpp:263-274 `add_contract_aib_aib_ab_to(r,y)`. -/
def addContractTo [Zero α] [Add α] [Sub α] [Mul α] (x : CV3) (r : CV2) (y : CV3) (m : Buf α) : Res (Buf α) := do
  Res.assrt (r.n0 = x.n0)
  Res.assrt (r.n1 = x.n2)
  Res.assrt (y.n0 = x.n0)
  Res.assrt (y.n1 = x.n1)
  Res.assrt (y.n2 = x.n2)
  prod21 ⟨x.arr, x.arrc, 0, 0, 0, x.s0, x.s2, x.s1⟩ ⟨y.arr, y.arrc, 0, 0, 0, y.s0, y.s2, y.s1⟩ r x.n0 x.n2 x.n1 m

/-- tensor_views/Ctensor3_view.hpp:345-347 `unsqueeze0(x)`. -/
def unsqueeze0 (x : CV2) : CV3 := ⟨x.arr, x.arrc, 1, x.n0, x.n1, x.s0 * x.n0, x.s0, x.s1⟩

/-- tensor_views/Ctensor3_view.hpp:349-351 `unsqueeze1(x)`: the first stride is `x.s1`. -/
def unsqueeze1 (x : CV2) : CV3 := ⟨x.arr, x.arrc, x.n0, 1, x.n1, x.s1, x.s1, x.s1⟩

/-- tensor_views/Ctensor3_view.hpp:353-355 `unsqueeze2(x)`. -/
def unsqueeze2 (x : CV2) : CV3 := ⟨x.arr, x.arrc, x.n0, x.n1, 1, x.s0, x.s1, x.s1⟩

end CV3

namespace CV4

/-- The offset `t` of tensor_views/Ctensor4_view.hpp:90, 95, 101. -/
def off (v : CV4) (i j k l : Nat) : Nat := v.s0 * i + v.s1 * j + v.s2 * k + v.s3 * l

/-- tensor_views/Ctensor4_view.hpp:89-92 `operator()(i0,i1,i2,i3)`. -/
def get (v : CV4) (i j k l : Nat) (m : Buf α) : Res (Cx α) := getC (v.arr + v.off i j k l) (v.arrc + v.off i j k l) m

/-- tensor_views/Ctensor4_view.hpp:94-98 `set(i0,i1,i2,i3,x)`. -/
def set (v : CV4) (i j k l : Nat) (x : Cx α) (m : Buf α) : Res (Buf α) := setC (v.arr + v.off i j k l) (v.arrc + v.off i j k l) x m

/-- tensor_views/Ctensor4_view.hpp:100-104 `inc(i0,i1,i2,i3,x)`. -/
def inc [Add α] (v : CV4) (i j k l : Nat) (x : Cx α) (m : Buf α) : Res (Buf α) :=
  incC (v.arr + v.off i j k l) (v.arrc + v.off i j k l) x m

/-- tensor_views/Ctensor4_view.hpp:172-174 `slice0(i)`. -/
def slice0 (v : CV4) (i : Nat) : CV3 := ⟨v.arr + i * v.s0, v.arrc + i * v.s0, v.n1, v.n2, v.n3, v.s1, v.s2, v.s3⟩

/-- tensor_views/Ctensor4_view.hpp:176-178 `slice1(i)`. -/
def slice1 (v : CV4) (i : Nat) : CV3 := ⟨v.arr + i * v.s1, v.arrc + i * v.s1, v.n0, v.n2, v.n3, v.s0, v.s2, v.s3⟩

/-- tensor_views/Ctensor4_view.hpp:180-182 `slice2(i)`. -/
def slice2 (v : CV4) (i : Nat) : CV3 := ⟨v.arr + i * v.s2, v.arrc + i * v.s2, v.n0, v.n1, v.n3, v.s0, v.s1, v.s3⟩

/-- tensor_views/Ctensor4_view.hpp:184-186 `slice3(i)`. -/
def slice3 (v : CV4) (i : Nat) : CV3 := ⟨v.arr + i * v.s3, v.arrc + i * v.s3, v.n0, v.n1, v.n2, v.s0, v.s1, v.s2⟩

/-- tensor_views/Ctensor4_view.hpp:188-190 `fuse01()`. -/
def fuse01 (v : CV4) : CV3 := ⟨v.arr, v.arrc, v.n0 * v.n1, v.n2, v.n3, v.s1, v.s2, v.s3⟩

/-- tensor_views/Ctensor4_view.hpp:192-194 `fuse12()`. -/
def fuse12 (v : CV4) : CV3 := ⟨v.arr, v.arrc, v.n0, v.n1 * v.n2, v.n3, v.s0, v.s2, v.s3⟩

/-- tensor_views/Ctensor4_view.hpp:196-198 `fuse23()`. -/
def fuse23 (v : CV4) : CV3 := ⟨v.arr, v.arrc, v.n0, v.n1, v.n2 * v.n3, v.s0, v.s1, v.s3⟩

/-- tensor_views/Ctensor4_view.hpp:125-127 `add_mix_1_0(x,y)`. -/
def addMix10 [Zero α] [Add α] [Sub α] [Mul α] (r x : CV4) (y : CV2) (m : Buf α) : Res (Buf α) :=
  r.fuse23.addMix10 x.fuse23 y m

/-- tensor_views/Ctensor4_view.hpp:129-131 `add_mix_1_H(x,y)`. -/
def addMix1H [Zero α] [Add α] [Sub α] [Neg α] [Mul α] (r x : CV4) (y : CV2) (m : Buf α) : Res (Buf α) :=
  r.fuse23.addMix1H x.fuse23 y m

/-- tensor_views/Ctensor4_view.hpp:135-137 `add_mix_3_0(x,y)`. -/
def addMix30 [Zero α] [Add α] [Sub α] [Mul α] (r x : CV4) (y : CV2) (m : Buf α) : Res (Buf α) :=
  r.fuse01.addMix20 x.fuse01 y m

/-- tensor_views/Ctensor4_view.hpp:139-141 `add_mix_3_H(x,y)`. -/
def addMix3H [Zero α] [Add α] [Sub α] [Neg α] [Mul α] (r x : CV4) (y : CV2) (m : Buf α) : Res (Buf α) :=
  r.fuse01.addMix2H x.fuse01 y m

/-- tensor_views/Ctensor4_view.hpp:145-157 `add_expand_2(x,y)`. -/
def addExpand2 [Add α] [Sub α] [Mul α] (r : CV4) (x y : CV3) (m : Buf α) : Res (Buf α) := do
  Res.assrt (x.n0 = r.n0)
  Res.assrt (x.n1 = r.n1)
  Res.assrt (x.n2 = r.n3)
  Res.assrt (y.n0 = x.n1)
  Res.assrt (y.n1 = r.n2)
  Res.assrt (y.n2 = x.n2)
  prod4 ⟨x.arr, x.arrc, 0, 0, 0, 0, x.s0, x.s1, 0, x.s2⟩ ⟨y.arr, y.arrc, 0, 0, 0, 0, 0, y.s0, y.s1, y.s2⟩ r r.n0 r.n1 r.n2 r.n3 m

/-- tensor_views/Ctensor4_view.hpp:161-166 `add_contract_abic_bic_abc_to(r,y)` through 110-118 `foreach_slice0`. -/
def addContractTo [Zero α] [Add α] [Sub α] [Mul α] (x : CV4) (r y : CV3) (m : Buf α) : Res (Buf α) := do
  Res.assrt (x.n0 = r.n0)
  loop x.n0 m fun i m => (x.slice0 i).addContractTo (r.slice0 i) y m

/-- The number `(x.n2-1)/n+1` of tiles of tensor_views/Ctensor4_view.hpp:210, 217, in `int` arithmetic; division by zero is
undefined. -/
def tiles (n2 n : Nat) : Res Nat := if n = 0 then .ub else .ok (Int.tdiv ((n2 : Int) - 1) n + 1).toNat

/-- tensor_views/Ctensor4_view.hpp:216-218 `split2(x,n)` (and 209-210, the constructor of Ctensor4_view_t3). -/
def split2 (x : CV3) (n : Nat) : Res CV4 := do
  let t ← tiles x.n2 n
  .ok ⟨x.arr, x.arrc, x.n0, x.n1, t, n, x.s0, x.s1, x.s2 * n, x.s2⟩

/-- tensor_views/Ctensor4_view.hpp:211 `last` of Ctensor4_view_t3: `x.n2-((x.n2-1)/n)*n`. -/
def lastTile (n2 n : Nat) : Res Int := if n = 0 then .ub else .ok ((n2 : Int) - Int.tdiv ((n2 : Int) - 1) n * n)

end CV4

/-- tensor_views/Ctensor3_view.hpp:37-41 with integer base addresses and strides, for `flip`. -/
structure CV3Z where
  arr : Int
  arrc : Int
  n0 : Nat
  n1 : Nat
  n2 : Nat
  s0 : Int
  s1 : Int
  s2 : Int
deriving DecidableEq, Repr

namespace CV3Z

/-- The offset `t` of tensor_views/Ctensor3_view.hpp:112. -/
def off (v : CV3Z) (i j k : Nat) : Int := v.s0 * i + v.s1 * j + v.s2 * k

/-- tensor_views/Ctensor3_view.hpp:319-326 `flip()`. -/
def flip (v : CV3Z) : CV3Z :=
  { v with
    arr := v.arr + ((v.n1 : Int) - 1) * v.s1 + ((v.n2 : Int) - 1) * v.s2
    arrc := v.arrc + ((v.n1 : Int) - 1) * v.s1 + ((v.n2 : Int) - 1) * v.s2
    s1 := -v.s1
    s2 := -v.s2 }

end CV3Z

end Cnine
