import Verif.Model.CtensorA

/-!
# Model of legacy/backendA/CtensorA.hpp, columns

As in Verif/Model/CtensorA.lean, on the CPU.  On the GPU these functions print a message and change nothing.
-/

namespace Cnine

variable {α : Type}

namespace CA

/-- legacy/backendA/CtensorA.hpp:1821-1825, 1850-1854, 1877-1881, 1904-1907: the last two sizes `J`, `I` and `A=asize/(I*J)`. -/
def lastTwo (x : CA) : Res (Nat × Nat × Nat) := x.re.lastTwo

/-- legacy/backendA/CtensorA.hpp:1819-1842 `add_col_norms(x)`; `sq` is `sqrt`. -/
def addColNorms [Zero α] [Add α] [Mul α] (sq : α → α) (r x : CA) (m : Buf α) : Res (Buf α) := do
  let (A, I, J) ← x.lastTwo
  Res.assrt (r.asize = A * J)
  loop A m fun a m => loop J m fun j m => do
    let t ← loop I (0 : α) fun i t => do
      let v ← m.read (x.arr + (a * I * J + i * J + j))
      let w ← m.read (x.arrc + (a * I * J + i * J + j))
      .ok (t + (v * v + w * w))
    incCell m (r.arr + (a * J + j)) (sq t)

/-- The loops of legacy/backendA/CtensorA.hpp:1857-1866, 1883-1894: for each column a number is computed, then each entry of the column is incremented. -/
def colsLoop [Add α] (f : α → α → α) (z : Nat → Buf α → Res α) (r X : CA) (A I J : Nat) (m : Buf α) : Res (Buf α) :=
  loop A m fun a m => loop J m fun j m => do
    let z ← z (a * J + j) m
    loop I m fun i m => do
      let v ← m.read (X.arr + (a * I * J + i * J + j))
      let m ← incCell m (r.arr + (a * I * J + i * J + j)) (f v z)
      let w ← m.read (X.arrc + (a * I * J + i * J + j))
      incCell m (r.arrc + (a * I * J + i * J + j)) (f w z)

/-- legacy/backendA/CtensorA.hpp:1845-1870 `add_col_norms_back(G,X,N)`; only the real parts of `G` and `N` are used. -/
def addColNormsBack [Add α] [Mul α] [Div α] (r G X N : CA) (m : Buf α) : Res (Buf α) := do
  Res.assrt (2 ≤ r.dims.length)
  Res.assrt (X.asize = r.asize)
  let (A, I, J) ← r.lastTwo
  Res.assrt (N.asize = r.asize / I)
  Res.assrt (G.asize = N.asize)
  colsLoop (· * ·) (fun c m => do
    let g ← m.read (G.arr + c)
    let n ← m.read (N.arr + c)
    .ok (g / n)) r X A I J m

/-- legacy/backendA/CtensorA.hpp:1873-1898 `add_divide_cols(X,N)`; only the real part of `N` is used. -/
def addDivideCols [Add α] [Div α] (r X N : CA) (m : Buf α) : Res (Buf α) := do
  Res.assrt (2 ≤ r.dims.length)
  Res.assrt (X.asize = r.asize)
  let (A, I, J) ← r.lastTwo
  Res.assrt (N.asize = r.asize / I)
  colsLoop (· / ·) (fun c m => m.read (N.arr + c)) r X A I J m

/-- `operator/` of `complex<float>`, used in legacy/backendA/CtensorA.hpp:1917 with a divisor without imaginary part. -/
def cdiv [Zero α] [Add α] [Sub α] [Mul α] [Div α] (a b : Cx α) : Cx α :=
  ⟨(a.re * b.re + a.im * b.im) / (b.re * b.re + b.im * b.im), (a.im * b.re - a.re * b.im) / (b.re * b.re + b.im * b.im)⟩

/-- legacy/backendA/CtensorA.hpp:1901-1928 `add_divide_cols_back0(G,N)`. -/
def addDivideColsBack0 [Zero α] [Add α] [Sub α] [Mul α] [Div α] (r G N : CA) (m : Buf α) : Res (Buf α) := do
  Res.assrt (2 ≤ r.dims.length)
  let (A, I, J) ← r.lastTwo
  Res.assrt (N.asize = r.asize / I)
  Res.assrt (G.asize = r.asize)
  loop A m fun a m => loop J m fun j m => do
    let n ← m.read (N.arr + (a * J + j))
    loop I m fun i m => do
      let g ← getC (G.arr + (a * I * J + i * J + j)) (G.arrc + (a * I * J + i * J + j)) m
      incC (r.arr + (a * I * J + i * J + j)) (r.arrc + (a * I * J + i * J + j)) (cdiv g ⟨n, 0⟩) m

/-- legacy/backendA/CtensorA.hpp:1931-1960 `add_divide_cols_back1(G,X,N)`; `sqInv n` is `pow(n,-2)`. -/
def addDivideColsBack1 [Add α] [Sub α] [Neg α] [Mul α] (sqInv : α → α) (r G X N : CA) (m : Buf α) : Res (Buf α) := do
  Res.assrt (2 ≤ G.dims.length)
  Res.assrt (G.dims = X.dims)
  Res.assrt (r.dims = N.dims)
  let (A, I, J) ← G.lastTwo
  Res.assrt (N.asize = G.asize / I)
  Res.assrt (r.asize = N.asize)
  loop A m fun a m => loop J m fun j m => do
    let n ← m.read (N.arr + (a * J + j))
    let z := -sqInv n
    loop I m fun i m => do
      let g ← getC (G.arr + (a * I * J + i * J + j)) (G.arrc + (a * I * J + i * J + j)) m
      let x ← getC (X.arr + (a * I * J + i * J + j)) (X.arrc + (a * I * J + i * J + j)) m
      let t := g * ⟨x.re, -x.im⟩
      incC (r.arr + (a * J + j)) (r.arrc + (a * J + j)) ⟨t.re * z, t.im * z⟩ m

/-- legacy/backendA/CtensorA.hpp:1365-1367, 1373-1396 `divide_cols(N)`. -/
def divideCols [Zero α] [Div α] (junk : Nat → α) (q : Nat) (x N : CA) (m : Buf α) : Res (CA × Buf α) := do
  let (A, I, J) ← x.lastTwo
  Res.assrt (N.asize = x.asize / I)
  let (R, m) ← zero junk q x.dims m
  let m ← loop A m fun a m => loop J m fun j m => do
    let z ← m.read (N.arr + (a * J + j))
    loop I m fun i m => do
      let v ← m.read (x.arr + (a * I * J + i * J + j))
      let m ← m.write (R.arr + (a * I * J + i * J + j)) (v / z)
      let w ← m.read (x.arrc + (a * I * J + i * J + j))
      m.write (R.arrc + (a * I * J + i * J + j)) (w / z)
  .ok (R, m)

/-- legacy/backendA/CtensorA.hpp:1369-1371, 1398-1421 `normalize_cols()`: runs of length `dims[k-1]` are divided by the root of the sum of their squares. -/
def normalizeCols [Zero α] [Add α] [Mul α] [Div α] (sq : α → α) (junk : Nat → α) (q : Nat) (x : CA) (m : Buf α) : Res (CA × Buf α) := do
  let J ← Res.get x.dims (x.dims.length - 1)
  Res.need (J ≠ 0)
  let I := x.asize / J
  let (R, m) ← copy junk q x m
  let m ← loop I m fun i m => do
    let t ← loop J ((0, 0) : α × α) fun j t => do
      let v ← m.read (R.arr + (i * J + j))
      let w ← m.read (R.arrc + (i * J + j))
      .ok (t.1 + v * v, t.2 + w * w)
    let z := sq (t.1 + t.2)
    loop J m fun j m => do
      let v ← m.read (R.arr + (i * J + j))
      let m ← m.write (R.arr + (i * J + j)) (v / z)
      let w ← m.read (R.arrc + (i * J + j))
      m.write (R.arrc + (i * J + j)) (w / z)
  .ok (R, m)

end CA

end Cnine
