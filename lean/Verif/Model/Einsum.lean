import Verif.Model.Elem

/-!
# Model of the einsum engine

tensors/functions/EinsumForm1.hpp, EinsumForm2.hpp, Einsum1params.hpp, Einsum2params.hpp, Einsum1.hpp,
Einsum2.hpp (host branches).  Strings are lists of characters.  A `multivec` of k vectors of equal length
(containers/multivec.hpp) is a list of k-tuples.  The C arrays `int[4]` are functions; writing beyond
entry 3 is undefined behaviour.
-/

namespace Cnine
namespace Einsum

/-- tensors/functions/EinsumForm1.hpp:30-39 `find_all(str,c)`: repeatedly find the first `c`, overwrite it
by `_` and record its position.  `fuel` bounds the `while` loop (one more than the length suffices). -/
def findAll : Nat → List Char → Char → List Nat → List Nat × List Char
  | 0, s, _, r => (r, s)
  | k + 1, s, c, r =>
    match s.findIdx? (· == c) with
    | none => (r, s)
    | some p => findAll k (s.set p '_') c (r ++ [p])

/-- `find_all` with enough fuel. -/
def findAllS (s : List Char) (c : Char) : List Nat × List Char := findAll (s.length + 1) s c []

/-- `for(auto q:v) ids[q]=id`. -/
def setIds (ids : List Nat) (v : List Nat) (id : Nat) : List Nat := v.foldl (fun l q => l.set q id) ids

/-- tensors/functions/EinsumForm1.hpp:47-54: members of `EinsumForm1`, plus the working strings. -/
structure Form1 where
  xstr : List Char
  rstr : List Char
  xids : List Nat
  rids : List Nat
  sums : List (List Nat)
  bcasts : List (List Nat)
  transfers : List (List Nat × List Nat)
  gathers : List (List Nat × List Nat)
  bcastIds : List Nat
  tail : Nat
  deriving Repr, DecidableEq

/-- tensors/functions/EinsumForm1.hpp:66-69. -/
def Form1.start (xs rs : List Char) : Form1 :=
  ⟨xs, rs, List.replicate xs.length 0, List.replicate rs.length 0, [], [], [], [], [], 0⟩

/-- tensors/functions/EinsumForm1.hpp:76-94: one round of the first loop for the letter `c`. -/
def Form1.rStep (c : Char) (f : Form1) : Form1 :=
  let v := findAllS f.rstr c
  let rids := setIds f.rids v.1 f.tail
  if f.xstr.contains c then
    let w := findAllS f.xstr c
    let xids := setIds f.xids w.1 f.tail
    if c ≠ 'S' then
      { f with rstr := v.2, rids := rids, xstr := w.2, xids := xids, transfers := f.transfers ++ [(w.1, v.1)],
               tail := f.tail + 1 }
    else
      { f with rstr := v.2, rids := rids, xstr := w.2, xids := xids, gathers := f.gathers ++ [(w.1, v.1)],
               tail := f.tail + 1 }
  else
    { f with rstr := v.2, rids := rids, bcasts := f.bcasts ++ [v.1], bcastIds := f.bcastIds ++ [f.tail],
             tail := f.tail + 1 }

/-- tensors/functions/EinsumForm1.hpp:71-95. -/
def Form1.rLoop : Nat → Form1 → Form1
  | 0, f => f
  | k + 1, f =>
    match f.rstr.find? (· != '_') with
    | none => f
    | some c => rLoop k (f.rStep c)

/-- tensors/functions/EinsumForm1.hpp:101-105: one round of the second loop. -/
def Form1.xStep (c : Char) (f : Form1) : Form1 :=
  let v := findAllS f.xstr c
  { f with xstr := v.2, xids := setIds f.xids v.1 f.tail, sums := f.sums ++ [v.1], tail := f.tail + 1 }

/-- tensors/functions/EinsumForm1.hpp:98-106. -/
def Form1.xLoop : Nat → Form1 → Form1
  | 0, f => f
  | k + 1, f =>
    match f.xstr.find? (· != '_') with
    | none => f
    | some c => xLoop k (f.xStep c)

/-- tensors/functions/EinsumForm1.hpp:66-106: the analysis after splitting the string. -/
def form1 (xs rs : List Char) : Form1 :=
  (((Form1.start xs rs).rLoop (rs.length + 1))).xLoop (xs.length + 1)

/-- `str.find("->")` and the two substrings, tensors/functions/EinsumForm1.hpp:61-67. -/
def splitArrow : List Char → Option (List Char × List Char)
  | '-' :: '>' :: l => some ([], l)
  | c :: l => (splitArrow l).map fun p => (c :: p.1, p.2)
  | [] => none

/-- tensors/functions/EinsumForm1.hpp:59-108: constructor; no arrow throws. -/
def parse1 (s : List Char) : Res Form1 :=
  match splitArrow s with
  | none => .throw
  | some (xs, rs) => .ok (form1 xs rs)

/-! ### parameters -/

/-- `a[i]=v` on an `int[4]`. -/
def put {β : Type _} (a : Nat → β) (i : Nat) (v : β) : Res (Nat → β) :=
  if i < 4 then .ok (fun j => if j = i then v else a j) else .ub

/-- include/GstridesB.hpp:216-223 `combine(v)`: the sum of the strides listed; out of range is undefined. -/
def combine (strides : List Nat) (v : List Nat) : Res Nat :=
  Res.forM v 0 fun t p => do
    let s ← Res.get strides p
    .ok (t + s)

/-- `x.dims[ix[0]]`. -/
def dimAt (dims : List Nat) (ix : List Nat) : Res Nat := do
  let q ← Res.get ix 0
  Res.get dims q

/-- tensors/functions/Einsum1params.hpp:43-57, tensors/functions/Einsum2params.hpp:57-79 `sum1`, `sum2`, `bcast`: extents and
strides of the listed axes, starting at entry `i`. -/
def fillAxes : Nat → List (List Nat) → View → (Nat → Nat) → (Nat → Nat) → Res ((Nat → Nat) × (Nat → Nat))
  | _, [], _, ds, ss => .ok (ds, ss)
  | i, l :: ls, x, ds, ss => do
    let d ← dimAt x.dims l
    let ds ← put ds i d
    let s ← combine x.strides l
    let ss ← put ss i s
    fillAxes (i + 1) ls x ds ss

/-- tensors/functions/Einsum1params.hpp:27-35 (gather strides separate). -/
structure P1 where
  td : Nat → Nat := fun _ => 1
  tsx : Nat → Nat := fun _ => 0
  tsr : Nat → Nat := fun _ => 0
  sd : Nat → Nat := fun _ => 1
  ss : Nat → Nat := fun _ => 0
  bd : Nat → Nat := fun _ => 1
  bs : Nat → Nat := fun _ => 0

/-- tensors/functions/Einsum1params.hpp:59-68 `transfer1`. -/
def P1.transfer1 : Nat → List (List Nat × List Nat) → View → View → P1 → Res P1
  | _, [], _, _, p => .ok p
  | i, l :: ls, x, r, p => do
    let d ← dimAt r.dims l.2
    let td ← put p.td i d
    let a ← combine x.strides l.1
    let tsx ← put p.tsx i a
    let b ← combine r.strides l.2
    let tsr ← put p.tsr i b
    transfer1 (i + 1) ls x r { p with td := td, tsx := tsx, tsr := tsr }

/-- tensors/functions/Einsum1params.hpp:70-77 `gather1`, one of the two arrays. -/
def gatherStrides : Nat → List (List Nat) → View → (Nat → Nat) → Res (Nat → Nat)
  | _, [], _, g => .ok g
  | i, l :: ls, v, g => do
    let s ← combine v.strides l
    let g ← put g i s
    gatherStrides (i + 1) ls v g

variable {α : Type _}

/-- tensors/functions/Einsum1.hpp:194-225: the loops.  Note the last term of `roffs_t`, which uses
`tstride_x[3]`. -/
def run1 [Zero α] [Add α] (p : P1) (xoffs roffs : Nat) (r x : View) (m : Buf α) : Res (Buf α) :=
  loop (p.td 0) m fun t0 m => loop (p.td 1) m fun t1 m => loop (p.td 2) m fun t2 m => loop (p.td 3) m fun t3 m => do
    let xt := xoffs + t0 * p.tsx 0 + t1 * p.tsx 1 + t2 * p.tsx 2 + t3 * p.tsx 3
    let rt := roffs + t0 * p.tsr 0 + t1 * p.tsr 1 + t2 * p.tsr 2 + t3 * p.tsx 3
    let v ← loop (p.sd 0) (0 : α) fun s0 v => loop (p.sd 1) v fun s1 v => loop (p.sd 2) v fun s2 v => do
      let a ← m.read (x.off + xt + s0 * p.ss 0 + s1 * p.ss 1 + s2 * p.ss 2)
      .ok (v + a)
    loop (p.bd 0) m fun b0 m => loop (p.bd 1) m fun b1 m => loop (p.bd 2) m fun b2 m => do
      let c := r.off + rt + b0 * p.bs 0 + b1 * p.bs 1 + b2 * p.bs 2
      let a ← m.read c
      m.write c (a + v)

/-- tensors/functions/Einsum1.hpp:116-138 `add_einsum(r,x)`. -/
def addEinsum1 [Zero α] [Add α] (f : Form1) (r x : View) (m : Buf α) : Res (Buf α) := do
  Res.assrt (decide (f.sums.length ≤ 3))
  Res.assrt (decide (f.bcasts.length ≤ 3))
  Res.assrt (decide (f.transfers.length ≤ 4))
  Res.assrt (decide (f.gathers.length = 0))
  let s ← fillAxes 0 f.sums x (fun _ => 1) (fun _ => 0)
  let b ← fillAxes 0 f.bcasts r (fun _ => 1) (fun _ => 0)
  let p ← P1.transfer1 0 f.transfers x r { sd := s.1, ss := s.2, bd := b.1, bs := b.2 }
  run1 p 0 0 r x m

/-- tensors/functions/Einsum1.hpp:141-165 and 228-243 `add_einsum(r,x,gmap)`; `edges` is the sequence of
(target, source) pairs visited by `GatherMapB::for_each` (hpc/GatherMapB.hpp:319-328).  `gather1`
(tensors/functions/Einsum1params.hpp:70-77) fills `gstride_x`, `gstride_r`; only entry 0 is used. -/
def addEinsum1Gather [Zero α] [Add α] (f : Form1) (edges : List (Nat × Nat)) (r x : View) (m : Buf α) : Res (Buf α) := do
  Res.assrt (decide (f.sums.length ≤ 3))
  Res.assrt (decide (f.bcasts.length ≤ 3))
  Res.assrt (decide (f.transfers.length ≤ 4))
  let s ← fillAxes 0 f.sums x (fun _ => 1) (fun _ => 0)
  let b ← fillAxes 0 f.bcasts r (fun _ => 1) (fun _ => 0)
  let p ← P1.transfer1 0 f.transfers x r { sd := s.1, ss := s.2, bd := b.1, bs := b.2 }
  let gx ← gatherStrides 0 (f.gathers.map (·.1)) x (fun _ => 0)
  let gr ← gatherStrides 0 (f.gathers.map (·.2)) r (fun _ => 0)
  Res.forM edges m fun m e => run1 p (e.2 * gx 0) (e.1 * gr 0) r x m

/-- tensors/functions/Einsum1.hpp:168-188 `add_einsum_back(x,r)`. -/
def addEinsum1Back [Zero α] [Add α] (f : Form1) (x r : View) (m : Buf α) : Res (Buf α) := do
  Res.assrt (decide (f.sums.length ≤ 3))
  Res.assrt (decide (f.bcasts.length ≤ 3))
  Res.assrt (decide (f.transfers.length ≤ 4))
  let s ← fillAxes 0 f.bcasts r (fun _ => 1) (fun _ => 0)
  let b ← fillAxes 0 f.sums x (fun _ => 1) (fun _ => 0)
  let p ← P1.transfer1 0 (f.transfers.map fun q => (q.2, q.1)) r x { sd := s.1, ss := s.2, bd := b.1, bs := b.2 }
  run1 p 0 0 x r m

/-- tensors/functions/Einsum1.hpp:45-51: extents by id from the dims of `x`; a conflict throws.
`none` is the initial -1. -/
def dimsById : List Nat → List Nat → List (Option Nat) → Res (List (Option Nat))
  | [], _, t => .ok t
  | i :: ids, ds, t =>
    match ds with
    | [] => .ub
    | d :: ds =>
      match t[i]? with
      | none => .ub
      | some none => dimsById ids ds (t.set i (some d))
      | some (some e) => if e = d then dimsById ids ds t else .throw

/-- tensors/functions/Einsum1.hpp:53-54. -/
def setBcast : List Nat → List Nat → List (Option Nat) → List (Option Nat)
  | i :: ids, d :: ds, t => setBcast ids ds (t.set i (some d))
  | _, _, t => t

/-- tensors/functions/Einsum1.hpp:43-56: the dims of the result allocated by `operator()`
(`none`: the id got no extent, -1 in the code). -/
def resultDims1 (f : Form1) (xdims rdims : List Nat) : Res (List (Option Nat)) := do
  Res.assrt (decide (rdims.length = f.bcastIds.length))
  let t ← dimsById f.xids xdims (List.replicate f.tail none)
  let t := setBcast f.bcastIds rdims t
  .ok (f.rids.map fun id => t.getD id none)

/-- tensors/functions/Einsum1.hpp:64-84: `operator()(x,gmap,rdims)`, the dims of the result.  After the same steps as
without a map, each entry `p` of `xr_gather` (a vector of two position lists) is indexed by 2. -/
def resultDims1Gather (f : Form1) (nIn : Nat) (xdims rdims : List Nat) : Res (List (Option Nat)) := do
  let d ← resultDims1 f xdims rdims
  Res.forM f.gathers d fun d p => do
    let l ← Res.get [p.1, p.2] 2
    Res.forM l d fun d j => .ok (d.set j (some nIn))

end Einsum
end Cnine
