import Verif.Model.Einsum

/-!
# Model of the einsum functors of the float views

tensor_views/functions/RtensorEinsumFn.hpp (real), EinsumFnBase.hpp and CtensorEinsumFn.hpp (complex).  Strings are lists of
characters.  The functors write one loop nest for every number of letters of a kind; here `nest` stands for all of them, and a number
for which no nest is written leads to the same `return` without effect.  For the complex views a cell stands for the two floats
`arr[i]` and `arrc[i]`; `cj` is complex conjugation.
-/

namespace Cnine
namespace EinsumFn

open Einsum (splitArrow)

/-- tensor_views/functions/RtensorEinsumFn.hpp:86-95, tensor_views/functions/EinsumFnBase.hpp:109-118 `find_all(str,c)`: repeatedly find the first `c`,
overwrite it by `x` and record its position.  The first argument bounds the `while` loop. -/
def findAll : Nat → List Char → Char → List Nat → List Nat × List Char
  | 0, s, _, r => (r, s)
  | k + 1, s, c, r =>
    match s.findIdx? (· == c) with
    | none => (r, s)
    | some p => findAll k (s.set p 'x') c (r ++ [p])

/-- `find_all` with enough rounds. -/
def findAllS (s : List Char) (c : Char) : List Nat × List Char := findAll (s.length + 1) s c []

/-- tensor_views/functions/EinsumFnBase.hpp:27-32: `dstrides`, `sstrides`, `bstrides` and the flags; the real functor has no flags. -/
structure Form where
  direct : List (List Nat × List Nat × List Nat) := []
  sums : List (List Nat × List Nat) := []
  bcasts : List (List Nat) := []
  xconj : Bool := false
  yconj : Bool := false
  deriving Repr, DecidableEq

/-- The working strings of the constructor together with the object. -/
structure St where
  xstr : List Char
  ystr : List Char
  rstr : List Char
  form : Form

/-- tensor_views/functions/RtensorEinsumFn.hpp:50-56, tensor_views/functions/EinsumFnBase.hpp:61-67: one round for the letter `c` of the result. -/
def St.rStep (c : Char) (s : St) : St :=
  let v := findAllS s.rstr c
  if ! s.xstr.contains c && ! s.ystr.contains c then
    { s with rstr := v.2, form := { s.form with bcasts := s.form.bcasts ++ [v.1] } }
  else
    let a := findAllS s.xstr c
    let b := findAllS s.ystr c
    { xstr := a.2, ystr := b.2, rstr := v.2, form := { s.form with direct := s.form.direct ++ [(v.1, a.1, b.1)] } }

/-- tensor_views/functions/RtensorEinsumFn.hpp:46-57, tensor_views/functions/EinsumFnBase.hpp:57-68: the first `while` loop. -/
def St.rLoop : Nat → St → St
  | 0, s => s
  | k + 1, s =>
    match s.rstr.find? (· != 'x') with
    | none => s
    | some c => rLoop k (s.rStep c)

/-- tensor_views/functions/RtensorEinsumFn.hpp:63, tensor_views/functions/EinsumFnBase.hpp:74: one round for the letter `c` of the first operand. -/
def St.xStep (c : Char) (s : St) : St :=
  let a := findAllS s.xstr c
  let b := findAllS s.ystr c
  { s with xstr := a.2, ystr := b.2, form := { s.form with sums := s.form.sums ++ [(a.1, b.1)] } }

/-- tensor_views/functions/RtensorEinsumFn.hpp:59-64, tensor_views/functions/EinsumFnBase.hpp:70-75: the second `while` loop. -/
def St.xLoop : Nat → St → St
  | 0, s => s
  | k + 1, s =>
    match s.xstr.find? (· != 'x') with
    | none => s
    | some c => xLoop k (s.xStep c)

/-- tensor_views/functions/RtensorEinsumFn.hpp:46-64, tensor_views/functions/EinsumFnBase.hpp:57-75: both loops on the three strings. -/
def analyse (xs ys rs : List Char) : Form :=
  ((St.rLoop (rs.length + 1) ⟨xs, ys, rs, {}⟩).xLoop (xs.length + 1)).form

/-- tensor_views/functions/RtensorEinsumFn.hpp:33-41, tensor_views/functions/EinsumFnBase.hpp:36-44: the three substrings, `none` for a malformed string. -/
def split3 (s : List Char) : Option (List Char × List Char × List Char) :=
  match s.findIdx? (· == ','), splitArrow s with
  | some d0, some (a, rs) =>
    if d0 > a.length then none
    else some (s.take d0, (s.drop (d0 + 1)).take (a.length - d0 - 1), rs)
  | _, _ => none

/-- tensor_views/functions/RtensorEinsumFn.hpp:32-64: the constructor; for a malformed string it prints a message and returns. -/
def realForm (s : List Char) : Form :=
  match split3 s with
  | none => {}
  | some (xs, ys, rs) => analyse xs ys rs

/-- tensor_views/functions/EinsumFnBase.hpp:100-106 `is_conj(str)`; `back()` of an empty string is undefined. -/
def isConj (s : List Char) : Res (Bool × List Char) :=
  match s.getLast? with
  | none => .ub
  | some c => if c = '*' then .ok (true, s.set (s.length - 1) 'x') else .ok (false, s)

/-- tensor_views/functions/EinsumFnBase.hpp:35-75: the constructor.  For a malformed string the flags are left without a value, and
reading them in `sloops` is undefined: `none`. -/
def complexForm (s : List Char) : Res (Option Form) :=
  match split3 s with
  | none => .ok none
  | some (xs, ys, rs) => do
    let r ← isConj rs
    let x ← isConj xs
    let y ← isConj ys
    .ok (some { analyse x.2 y.2 r.2 with xconj := x.1 != r.1, yconj := y.1 != r.1 })

/-! ### evaluation -/

variable {α : Type}

/-- include/Gstrides.hpp:167-174 `combine(v)`: the sum of the strides listed; a position that is too large fails the assertion. -/
def combine (strides : List Nat) (v : List Nat) : Res Nat :=
  Res.forM v 0 fun t p => do
    Res.assrt (decide (p < strides.length))
    let s ← Res.get strides p
    .ok (t + s)

/-- Nested `for` loops over the given extents, the first the outermost. -/
def nest {σ : Type} : List Nat → σ → (List Nat → σ → Res σ) → Res σ
  | [], s, f => f [] s
  | n :: ns, s, f => loop n s fun i s => nest ns s fun ix s => f (i :: ix) s

/-- `i0*r0+i1*r1+…`: the offset built from loop variables and strides (tensor_views/functions/RtensorEinsumFn.hpp:116, 134, 159). -/
def lin (strides ix : List Nat) : Nat := ((ix.zip strides).map fun p => p.1 * p.2).sum

/-- Extents and strides of the letters of the result: `I0,r0,x0,y0`, `I1,…`
(tensor_views/functions/RtensorEinsumFn.hpp:110-113, 122-130, 141-154, tensor_views/functions/CtensorEinsumFn.hpp:46-49, 58-66, 77-90, 102-120). -/
def dirAxes (r x y : View) : List (List Nat × List Nat × List Nat) → Res (List (Nat × Nat × Nat × Nat))
  | [] => .ok []
  | p :: ps => do
    let n ← Einsum.dimAt r.dims p.1
    let a ← combine r.strides p.1
    let b ← combine x.strides p.2.1
    let c ← combine y.strides p.2.2
    let l ← dirAxes r x y ps
    .ok ((n, a, b, c) :: l)

/-- Extents and strides of the summed letters: `I0,x0,y0`, `I1,…`; the extents are those of `d`, the strides those of `a` and `b`. -/
def sumAxes (d a b : View) : List (List Nat × List Nat) → Res (List (Nat × Nat × Nat))
  | [] => .ok []
  | p :: ps => do
    let n ← Einsum.dimAt d.dims p.1
    let s ← combine a.strides p.1
    let t ← combine b.strides p.2
    let l ← sumAxes d a b ps
    .ok ((n, s, t) :: l)

/-- Extents and strides of the letters that occur in the result only (tensor_views/functions/RtensorEinsumFn.hpp:241-242, 251-254,
264-269). -/
def bcastAxes (r : View) : List (List Nat) → Res (List (Nat × Nat))
  | [] => .ok []
  | p :: ps => do
    let n ← Einsum.dimAt r.dims p
    let s ← combine r.strides p
    let l ← bcastAxes r ps
    .ok ((n, s) :: l)

/-- tensor_views/functions/RtensorEinsumFn.hpp:232-278, tensor_views/functions/CtensorEinsumFn.hpp:304-358 `bloops(r,roffs,t)`. -/
def bloops [Add α] (f : Form) (r : View) (ro : Nat) (t : α) (m : Buf α) : Res (Buf α) :=
  if f.bcasts.length ≤ 3 then do
    let B ← bcastAxes r f.bcasts
    nest (B.map (·.1)) m fun ix m => do
      let a ← m.read (r.off + ro + lin (B.map (·.2)) ix)
      m.write (r.off + ro + lin (B.map (·.2)) ix) (a + t)
  else .ok m

/-- The loops `t+=x.arr[xo+…]*y.arr[yo+…]` over the summed letters. -/
def addProds [Zero α] [Add α] (prod : α → α → α) (S : List (Nat × Nat × Nat)) (x y : View) (xo yo : Nat) (m : Buf α) : Res α :=
  nest (S.map (·.1)) 0 fun ix t => do
    let a ← m.read (x.off + (xo + lin (S.map (·.2.1)) ix))
    let b ← m.read (y.off + (yo + lin (S.map (·.2.2)) ix))
    .ok (t + prod a b)

/-- tensor_views/functions/RtensorEinsumFn.hpp:169-229 `sloops(r,x,y,ro,xo,yo)`.  The sizes and both strides are those of `r`
(lines 177-179, 190-196, 207-217). -/
def realSloops [Zero α] [Add α] [Mul α] (f : Form) (r x y : View) (ro xo yo : Nat) (m : Buf α) : Res (Buf α) :=
  if f.sums.length = 0 then do
    let a ← m.read (x.off + xo)
    let b ← m.read (y.off + yo)
    bloops f r ro (a * b) m
  else if f.sums.length ≤ 3 then do
    let S ← sumAxes r r r f.sums
    let t ← addProds (· * ·) S x y xo yo m
    bloops f r ro t m
  else .ok m

/-- `complex<TYPE>(v.arr[i],v.arrc[i])` or, with the flag, `complex<TYPE>(v.arr[i],-v.arrc[i])`. -/
def flip (cj : α → α) (b : Bool) (a : α) : α := if b then cj a else a

/-- tensor_views/functions/CtensorEinsumFn.hpp:138-299 `sloops(r,x,y,ro,xo,yo)`.  With three summed letters (260-278) the two cases
of `yconj` are exchanged when `xconj` is set. -/
def complexSloops [Zero α] [Add α] [Mul α] (cj : α → α) (f : Form) (r x y : View) (ro xo yo : Nat) (m : Buf α) : Res (Buf α) :=
  if f.sums.length = 0 then do
    let a ← m.read (x.off + xo)
    let b ← m.read (y.off + yo)
    bloops f r ro (flip cj f.xconj a * flip cj f.yconj b) m
  else if f.sums.length ≤ 3 then do
    let S ← sumAxes x x y f.sums
    let yc := if f.sums.length = 3 && f.xconj then ! f.yconj else f.yconj
    let t ← addProds (fun a b => flip cj f.xconj a * flip cj yc b) S x y xo yo m
    bloops f r ro t m
  else .ok m

/-- The loops over the letters of the result; `sl` stands for `sloops`, `k` is the largest number of letters that has a loop nest. -/
def runFn (k : Nat) (f : Form) (r x y : View) (sl : Nat → Nat → Nat → Buf α → Res (Buf α)) (m : Buf α) : Res (Buf α) :=
  if f.direct.length ≤ k then do
    let D ← dirAxes r x y f.direct
    nest (D.map (·.1)) m fun ix m =>
      sl (lin (D.map (·.2.1)) ix) (lin (D.map (·.2.2.1)) ix) (lin (D.map (·.2.2.2)) ix) m
  else .ok m

/-- tensor_views/functions/RtensorEinsumFn.hpp:101-164 `operator()(r,x,y)`: loop nests for up to three letters. -/
def realRun [Zero α] [Add α] [Mul α] (f : Form) (r x y : View) (m : Buf α) : Res (Buf α) :=
  runFn 3 f r x y (realSloops f r x y) m

/-- tensor_views/functions/CtensorEinsumFn.hpp:37-132 `operator()(r,x,y)`: loop nests for up to four letters. -/
def complexRun [Zero α] [Add α] [Mul α] (cj : α → α) (f : Form) (r x y : View) (m : Buf α) : Res (Buf α) :=
  runFn 4 f r x y (complexSloops cj f r x y) m

/-- tensor_views/functions/RtensorEinsumFn.hpp:32, 101: `RtensorEinsumFn(str)(r,x,y)`. -/
def realEinsum [Zero α] [Add α] [Mul α] (s : List Char) (r x y : View) (m : Buf α) : Res (Buf α) :=
  realRun (realForm s) r x y m

/-- tensor_views/functions/CtensorEinsumFn.hpp:30-37: `CtensorEinsumFn(str)(r,x,y)`. -/
def complexEinsum [Zero α] [Add α] [Mul α] (cj : α → α) (s : List Char) (r x y : View) (m : Buf α) : Res (Buf α) := do
  match ← complexForm s with
  | none => .ub
  | some f => complexRun cj f r x y m

end EinsumFn
end Cnine
