import Verif.Model.CtensorB

/-!
# Model of legacy/backendB/CtensorArrayB.hpp

Arrays of complex tensors of backend B, on the CPU (`dev=0`).  As in Verif/Model/CtensorB.lean, `CNINE_CHECK_RANGE`, `CNINE_DIMS_EQ_TOTAL` and `CNINE_DEVICE_SAME` are compiled out; `assert` throws.

Not modelled: `batched` (stored and never read), the GPU, ATen, `gather` and `add_gather`, `fuse_array_indices`, the functions whose bodies are commented out
(scatter, lines 627-670), printing.
-/

namespace Cnine

variable {α : Type}

/-- legacy/backendB/CtensorArrayB.hpp:34-38, without `batched`. -/
structure CBA where
  T : CB
  ak : Nat
deriving DecidableEq

namespace CBA

/-! ### Constructors and sizes -/

/-- legacy/backendB/CtensorArrayB.hpp:57-58, 64-66, 76-78, 101-111, with include/Gdims.hpp:98-102 for the sizes. -/
def raw (junk : Nat → α) (q : Nat) (adims cdims : List Nat) (m : Buf α) : Res (CBA × Buf α) := do
  let (R, m) ← CB.raw junk q (adims ++ cdims) m
  .ok (⟨R, adims.length⟩, m)

/-- legacy/backendB/CtensorArrayB.hpp:80-86, 113-119 (`f` is 0), 88-90 (`f` is 1), 96-98 (random numbers `f`). -/
def filled (f : Nat → α) (junk : Nat → α) (q : Nat) (adims cdims : List Nat) (m : Buf α) : Res (CBA × Buf α) := do
  let (R, m) ← CB.filled f junk q (adims ++ cdims) m
  .ok (⟨R, adims.length⟩, m)

/-- legacy/backendB/CtensorArrayB.hpp:92-94. -/
def sequential [Zero α] [NatCast α] (junk : Nat → α) (q : Nat) (adims cdims : List Nat) (m : Buf α) : Res (CBA × Buf α) := do
  let (R, m) ← CB.sequential junk q (adims ++ cdims) m
  .ok (⟨R, adims.length⟩, m)

/-- legacy/backendB/CtensorArrayB.hpp:194-205: an array from a tensor; a negative `_ak` counts from the end. -/
def ofTensor (junk : Nat → α) (q : Nat) (x : CB) (ak : Int) (m : Buf α) : Res (CBA × Buf α) := do
  let (R, m) ← CB.copy junk q x m
  .ok (⟨R, (if ak < 0 then x.dims.length + ak else ak).toNat⟩, m)

/-- legacy/backendB/CtensorArrayB.hpp:125-126: a copy. -/
def copy (junk : Nat → α) (q : Nat) (X : CBA) (m : Buf α) : Res (CBA × Buf α) := do
  let (R, m) ← CB.copy junk q X.T m
  .ok (⟨R, X.ak⟩, m)

/-- legacy/backendB/CtensorArrayB.hpp:234-236. -/
def adims (X : CBA) : List Nat := X.T.dims.take X.ak

/-- legacy/backendB/CtensorArrayB.hpp:246-248. -/
def aasize (X : CBA) : Nat := X.adims.prod

/-- legacy/backendB/CtensorArrayB.hpp:251-253. -/
def cdims (X : CBA) : List Nat := X.T.dims.drop X.ak

/-- legacy/backendB/CtensorArrayB.hpp:263-265. -/
def casize (X : CBA) : Nat := X.cdims.prod

/-- legacy/backendB/CtensorArrayB.hpp:268-270: the stride of the first axis of the cells. -/
def cellstride (X : CBA) : Res Nat := Res.get X.T.strides X.ak

/-! ### Views -/

/-- legacy/backendB/CtensorArrayB.hpp:152-154. -/
def view (X : CBA) : Res CBA := do
  let R ← X.T.view
  .ok ⟨R, X.ak⟩

/-- legacy/backendB/CtensorArrayB.hpp:156-163. -/
def viewAsShape (X : CBA) (adims : List Nat) : Res CBA := do
  let R ← CB.noalloc X.T.arr (adims ++ X.cdims) true
  .ok ⟨R, adims.length⟩

/-! ### Entries -/

/-- legacy/backendB/CtensorArrayB.hpp:276-278 `operator()(aix,cix)`, with include/Gindex.hpp:146-151. -/
def get (X : CBA) (aix cix : List Nat) (m : Buf α) : Res (Cx α) := X.T.get (aix ++ cix) m

/-- legacy/backendB/CtensorArrayB.hpp:280-282 `set(aix,cix,v)`. -/
def set (X : CBA) (aix cix : List Nat) (v : Cx α) (m : Buf α) : Res (Buf α) := X.T.set (aix ++ cix) v m

/-! ### Cells -/

/-- legacy/backendB/CtensorArrayB.hpp:294-300 `copy_cell_to(R,aix)`. -/
def copyCellTo (X : CBA) (r : CB) (aix : List Nat) (m : Buf α) : Res (Buf α) := do
  let t ← RAA.atIx aix X.T.strides
  stdCopy m (X.T.arr + t) r.memsize r.arr

/-- legacy/backendB/CtensorArrayB.hpp:288-292 `get_cell(aix)`. -/
def getCell (junk : Nat → α) (q : Nat) (X : CBA) (aix : List Nat) (m : Buf α) : Res (CB × Buf α) := do
  let (R, m) ← CB.raw junk q X.cdims m
  let m ← X.copyCellTo R aix m
  .ok (R, m)

/-- legacy/backendB/CtensorArrayB.hpp:302-311 `add_cell_to(R,aix)`. -/
def addCellTo [Add α] (X : CBA) (r : CB) (aix : List Nat) (m : Buf α) : Res (Buf α) := do
  let t ← RAA.atIx aix X.T.strides
  stdAdd (· + ·) m (X.T.arr + t) r.memsize r.arr

/-- legacy/backendB/CtensorArrayB.hpp:320-325 `copy_cell_to(R,ix)`. -/
def copyCellToAt (X : CBA) (r : CB) (i : Nat) (m : Buf α) : Res (Buf α) := do
  let s ← X.cellstride
  stdCopy m (X.T.arr + i * s) r.memsize r.arr

/-- legacy/backendB/CtensorArrayB.hpp:327-335 `add_cell_to(R,ix)`. -/
def addCellToAt [Add α] (X : CBA) (r : CB) (i : Nat) (m : Buf α) : Res (Buf α) := do
  let s ← X.cellstride
  stdAdd (· + ·) m (X.T.arr + i * s) r.memsize r.arr

/-- legacy/backendB/CtensorArrayB.hpp:338-344 `set_cell(aix,x)`. -/
def setCell (X : CBA) (aix : List Nat) (x : CB) (m : Buf α) : Res (Buf α) := do
  let t ← RAA.atIx aix X.T.strides
  stdCopy m x.arr x.memsize (X.T.arr + t)

/-- legacy/backendB/CtensorArrayB.hpp:346-355 `add_to_cell(aix,x)`. -/
def addToCell [Add α] (X : CBA) (aix : List Nat) (x : CB) (m : Buf α) : Res (Buf α) := do
  let t ← RAA.atIx aix X.T.strides
  stdAdd (· + ·) m x.arr x.memsize (X.T.arr + t)

/-- legacy/backendB/CtensorArrayB.hpp:357-362 `set_cell(ix,x)`. -/
def setCellAt (X : CBA) (i : Nat) (x : CB) (m : Buf α) : Res (Buf α) := do
  let s ← X.cellstride
  stdCopy m x.arr x.memsize (X.T.arr + i * s)

/-- legacy/backendB/CtensorArrayB.hpp:364-372 `add_to_cell(ix,x)`. -/
def addToCellAt [Add α] (X : CBA) (i : Nat) (x : CB) (m : Buf α) : Res (Buf α) := do
  let s ← X.cellstride
  stdAdd (· + ·) m x.arr x.memsize (X.T.arr + i * s)

/-- legacy/backendB/CtensorArrayB.hpp:375-381 `cell(i)`. -/
def cellAt (X : CBA) (i : Nat) : Res CB := do
  let s ← X.cellstride
  CB.noalloc (X.T.arr + i * s) X.cdims true

/-- legacy/backendB/CtensorArrayB.hpp:383-389 `cell(i,j)`. -/
def cell2 (X : CBA) (i j : Nat) : Res CB := do
  let s0 ← Res.get X.T.strides 0
  let s1 ← Res.get X.T.strides 1
  CB.noalloc (X.T.arr + i * s0 + j * s1) X.cdims true

/-- legacy/backendB/CtensorArrayB.hpp:391-399 `cell(aix)`. -/
def cell (X : CBA) (aix : List Nat) : Res CB := do
  let t ← RAA.atIx aix X.T.strides
  CB.noalloc (X.T.arr + t) X.cdims true

/-! ### Broadcasting, sums -/

/-- legacy/backendB/CtensorArrayB.hpp:504-514 `broadcast_copy(x)`. -/
def broadcastCopy (X : CBA) (x : CB) (m : Buf α) : Res (Buf α) := do
  Res.assrt (x.dims = X.cdims)
  let s ← X.cellstride
  loop X.aasize m fun i m => stdCopy m x.arr x.memsize (X.T.arr + i * s)

/-- legacy/backendB/CtensorArrayB.hpp:533-538: the sizes of the two arrays, `ix` left out; reading behind the end of a list of sizes is undefined. -/
def sizesMatch (adims xadims : List Nat) (ix : Nat) : Res Unit := do
  loop ix () fun i _ => do
    let a ← Res.get adims i
    let b ← Res.get xadims i
    Res.assrt (a = b)
  loop (adims.length - (ix + 1)) () fun k _ => do
    let a ← Res.get adims (ix + 1 + k)
    let b ← Res.get xadims (ix + k)
    Res.assrt (a = b)

/-- legacy/backendB/CtensorArrayB.hpp:541-556: the loops of `broadcast_copy(ix,x)`; `n` is the size of the axis. Division by 0 is undefined. -/
def broadcastLoops (X : CBA) (ix : Nat) (x : CBA) (n : Nat) (m : Buf α) : Res (Buf α) :=
  if ix = 0 then do
    let s ← Res.get X.T.strides 0
    loop n m fun i m => stdCopy m x.T.arr x.T.memsize (X.T.arr + i * s)
  else do
    let s1 ← Res.get X.T.strides (ix - 1)
    Res.need (s1 ≠ 0)
    let sx ← Res.get x.T.strides (ix - 1)
    let s ← Res.get X.T.strides ix
    loop (X.T.memsize / s1) m fun a m => loop n m fun i m => stdCopy m (x.T.arr + a * sx) sx (X.T.arr + a * s1 + i * s)

/-- legacy/backendB/CtensorArrayB.hpp:529-573 `broadcast_copy(ix,x)`. -/
def broadcastAlong (X : CBA) (ix : Nat) (x : CBA) (m : Buf α) : Res (Buf α) := do
  Res.assrt (x.ak + 1 = X.ak)
  sizesMatch X.adims x.adims ix
  let n ← Res.get X.adims ix
  X.broadcastLoops ix x n m

/-- legacy/backendB/CtensorArrayB.hpp:579-584: line 580 compares each size with itself, and the second loop ends at the number of axes of the smaller array. -/
def reduceMatch (adims xadims : List Nat) (ix : Nat) : Res Unit := do
  Res.need (ix ≤ adims.length)
  loop (adims.length - (ix + 1)) () fun k _ => do
    let a ← Res.get xadims (ix + 1 + k)
    let b ← Res.get adims (ix + k)
    Res.assrt (a = b)

/-- legacy/backendB/CtensorArrayB.hpp:588-603: the loops of `add_reduce(x,ix)`; `n` is the size of the axis. -/
def reduceLoops [Add α] (X : CBA) (x : CBA) (ix n : Nat) (m : Buf α) : Res (Buf α) :=
  if ix = 0 then do
    let s ← Res.get x.T.strides 0
    loop n m fun i m => stdAdd (· + ·) m (x.T.arr + i * s) s X.T.arr
  else do
    let s1 ← Res.get x.T.strides (ix - 1)
    Res.need (s1 ≠ 0)
    let r1 ← Res.get X.T.strides (ix - 1)
    let s ← Res.get x.T.strides ix
    loop (x.T.memsize / s1) m fun a m => loop n m fun i m => stdAdd (· + ·) m (x.T.arr + a * s1 + i * s) s (X.T.arr + a * r1)

/-- legacy/backendB/CtensorArrayB.hpp:576-622 `add_reduce(x,ix)`. -/
def addReduce [Add α] (X : CBA) (x : CBA) (ix : Nat) (m : Buf α) : Res (Buf α) := do
  Res.assrt (X.ak + 1 = x.ak || x.ak = 1)
  reduceMatch X.adims x.adims ix
  let n ← Res.get x.adims ix
  X.reduceLoops x ix n m

/-- legacy/backendB/CtensorArrayB.hpp:680-682 `plus(x)`. -/
def plus [Add α] (junk : Nat → α) (q : Nat) (X x : CBA) (m : Buf α) : Res (CBA × Buf α) := do
  let (R, m) ← CB.plus junk q X.T x.T m
  .ok (⟨R, X.ak⟩, m)

/-- legacy/backendB/CtensorArrayB.hpp:684-694 `plus(y)`, `minus(y)` with one tensor: the addition and the subtraction are commented out. -/
def plusOne (junk : Nat → α) (q : Nat) (X : CBA) (_y : CB) (m : Buf α) : Res (CBA × Buf α) := X.copy junk q m

end CBA

end Cnine
