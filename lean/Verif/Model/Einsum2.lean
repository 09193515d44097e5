import Verif.Model.Einsum

/-!
# Model of the two-operand einsum

tensors/functions/EinsumForm2.hpp, Einsum2params.hpp, Einsum2.hpp (host branches).
-/

namespace Cnine
namespace Einsum

/-- tensors/functions/EinsumForm2.hpp:28-45: members of `EinsumForm2`, plus the working strings.  Triples are
in the order (x,y,r). -/
structure Form2 where
  xstr : List Char
  ystr : List Char
  rstr : List Char
  xids : List Nat
  yids : List Nat
  rids : List Nat
  xsums : List (List Nat)
  ysums : List (List Nat)
  bcasts : List (List Nat)
  xr : List (List Nat × List Nat)
  yr : List (List Nat × List Nat)
  xy : List (List Nat × List Nat)
  transfers : List (List Nat × List Nat × List Nat)
  conv : List (List Nat × List Nat × List Nat)
  triple : List (List Nat × List Nat × List Nat)
  xrg : List (List Nat × List Nat)
  yrg : List (List Nat × List Nat)
  bcastIds : List Nat
  tail : Nat
  deriving Repr, DecidableEq

/-- tensors/functions/EinsumForm2.hpp:60-65. -/
def Form2.start (xs ys rs : List Char) : Form2 :=
  { xstr := xs, ystr := ys, rstr := rs, xids := List.replicate xs.length 0, yids := List.replicate ys.length 0,
    rids := List.replicate rs.length 0, xsums := [], ysums := [], bcasts := [], xr := [], yr := [], xy := [],
    transfers := [], conv := [], triple := [], xrg := [], yrg := [], bcastIds := [], tail := 0 }

/-- The convolution letters, tensors/functions/EinsumForm2.hpp:87. -/
def isConv (c : Char) : Bool := c == 'U' || c == 'V' || c == 'W'

/-- tensors/functions/EinsumForm2.hpp:82-94, letter in all three strings.  `f` already carries the updates of lines
73-80, `v`, `xw` are the positions in the result and in x. -/
def Form2.rStepXY (c : Char) (v xw : List Nat) (f : Form2) : Form2 :=
  let yw := findAllS f.ystr c
  if c = '*' then
    { f with ystr := yw.2, triple := f.triple ++ [(xw, yw.1, v)], yids := setIds f.yids yw.1 f.tail, tail := f.tail + 1 }
  else if isConv c then
    { f with ystr := yw.2, conv := f.conv ++ [(xw, yw.1, v)], yids := setIds f.yids yw.1 (f.tail + 1), tail := f.tail + 2 }
  else
    { f with ystr := yw.2, transfers := f.transfers ++ [(xw, yw.1, v)], yids := setIds f.yids yw.1 f.tail,
             tail := f.tail + 1 }

/-- tensors/functions/EinsumForm2.hpp:78-102, letter in the result and in x. -/
def Form2.rStepX (c : Char) (v : List Nat) (f : Form2) : Form2 :=
  let xw := findAllS f.xstr c
  let f1 := { f with xstr := xw.2, xids := setIds f.xids xw.1 f.tail }
  if f.ystr.contains c then f1.rStepXY c v xw.1
  else if c ≠ 'S' then { f1 with xr := f1.xr ++ [(xw.1, v)], tail := f1.tail + 1 }
  else { f1 with xrg := f1.xrg ++ [(xw.1, v)], tail := f1.tail + 1 }

/-- tensors/functions/EinsumForm2.hpp:104-112, letter in the result and in y but not in x. -/
def Form2.rStepY (c : Char) (v : List Nat) (f : Form2) : Form2 :=
  let yw := findAllS f.ystr c
  let f1 := { f with ystr := yw.2, yids := setIds f.yids yw.1 f.tail }
  if c ≠ 'S' then { f1 with yr := f1.yr ++ [(yw.1, v)], tail := f1.tail + 1 }
  else { f1 with yrg := f1.yrg ++ [(yw.1, v)], tail := f1.tail + 1 }

/-- tensors/functions/EinsumForm2.hpp:73-118: one round of the first loop. -/
def Form2.rStep (c : Char) (f : Form2) : Form2 :=
  let v := findAllS f.rstr c
  let f1 := { f with rstr := v.2, rids := setIds f.rids v.1 f.tail }
  if f.xstr.contains c then f1.rStepX c v.1
  else if f.ystr.contains c then f1.rStepY c v.1
  else { f1 with bcasts := f1.bcasts ++ [v.1], bcastIds := f1.bcastIds ++ [f1.tail], tail := f1.tail + 1 }

/-- tensors/functions/EinsumForm2.hpp:67-119. -/
def Form2.rLoop : Nat → Form2 → Form2
  | 0, f => f
  | k + 1, f =>
    match f.rstr.find? (· != '_') with
    | none => f
    | some c => rLoop k (f.rStep c)

/-- tensors/functions/EinsumForm2.hpp:126-139: one round of the second loop. -/
def Form2.xStep (c : Char) (f : Form2) : Form2 :=
  let v := findAllS f.xstr c
  let f1 := { f with xstr := v.2, xids := setIds f.xids v.1 f.tail }
  if f.ystr.contains c then
    let w := findAllS f.ystr c
    { f1 with ystr := w.2, yids := setIds f.yids w.1 f.tail, xy := f.xy ++ [(v.1, w.1)], tail := f.tail + 1 }
  else { f1 with xsums := f.xsums ++ [v.1], tail := f.tail + 1 }

/-- tensors/functions/EinsumForm2.hpp:121-140. -/
def Form2.xLoop : Nat → Form2 → Form2
  | 0, f => f
  | k + 1, f =>
    match f.xstr.find? (· != '_') with
    | none => f
    | some c => xLoop k (f.xStep c)

/-- tensors/functions/EinsumForm2.hpp:147-151: one round of the third loop. -/
def Form2.yStep (c : Char) (f : Form2) : Form2 :=
  let v := findAllS f.ystr c
  { f with ystr := v.2, yids := setIds f.yids v.1 f.tail, ysums := f.ysums ++ [v.1], tail := f.tail + 1 }

/-- tensors/functions/EinsumForm2.hpp:142-152. -/
def Form2.yLoop : Nat → Form2 → Form2
  | 0, f => f
  | k + 1, f =>
    match f.ystr.find? (· != '_') with
    | none => f
    | some c => yLoop k (f.yStep c)

/-- tensors/functions/EinsumForm2.hpp:60-154: the analysis after splitting. -/
def form2 (xs ys rs : List Char) : Form2 :=
  (((Form2.start xs ys rs).rLoop (rs.length + 1)).xLoop (xs.length + 1)).yLoop (ys.length + 1)

/-- `str.find(',')` and the two substrings. -/
def splitComma : List Char → Option (List Char × List Char)
  | [] => none
  | c :: l => if c = ',' then some ([], l) else (splitComma l).map fun p => (c :: p.1, p.2)

/-- tensors/functions/EinsumForm2.hpp:52-154: constructor.  It throws unless there is a comma before the first
arrow. -/
def parse2 (s : List Char) : Res Form2 :=
  match splitArrow s with
  | none => .throw
  | some (pre, rs) =>
    match splitComma pre with
    | none => .throw
    | some (xs, ys) => .ok (form2 xs ys rs)

/-! ### parameters -/

/-- tensors/functions/Einsum2params.hpp:26-53.  `cstride_x` is stored as a magnitude; it is negative exactly
when `convo_limiter` is set, because `convolve_back` sets both (lines 127-136). -/
structure P2 where
  td : Nat → Nat := fun _ => 1
  tsx : Nat → Nat := fun _ => 0
  tsy : Nat → Nat := fun _ => 0
  tsr : Nat → Nat := fun _ => 0
  xsd : Nat → Nat := fun _ => 1
  xss : Nat → Nat := fun _ => 0
  ysd : Nat → Nat := fun _ => 1
  yss : Nat → Nat := fun _ => 0
  cd : Nat → Nat := fun _ => 1
  csx : Nat → Nat := fun _ => 0
  csy : Nat → Nat := fun _ => 0
  bd : Nat → Nat := fun _ => 1
  bs : Nat → Nat := fun _ => 0
  lim : Nat → Bool := fun _ => false

/-- tensors/functions/Einsum2params.hpp:81-90 `transfer1`; returns the new counter too. -/
def P2.transfer1 : Nat → List (List Nat × List Nat) → View → View → P2 → Res (Nat × P2)
  | i, [], _, _, p => .ok (i, p)
  | i, l :: ls, x, r, p => do
    let d ← dimAt r.dims l.2
    let td ← put p.td i d
    let a ← combine x.strides l.1
    let tsx ← put p.tsx i a
    let b ← combine r.strides l.2
    let tsr ← put p.tsr i b
    transfer1 (i + 1) ls x r { p with td := td, tsx := tsx, tsr := tsr }

/-- tensors/functions/Einsum2params.hpp:92-101 `transfer2`. -/
def P2.transfer2 : Nat → List (List Nat × List Nat) → View → View → P2 → Res (Nat × P2)
  | i, [], _, _, p => .ok (i, p)
  | i, l :: ls, y, r, p => do
    let d ← dimAt r.dims l.2
    let td ← put p.td i d
    let a ← combine y.strides l.1
    let tsy ← put p.tsy i a
    let b ← combine r.strides l.2
    let tsr ← put p.tsr i b
    transfer2 (i + 1) ls y r { p with td := td, tsy := tsy, tsr := tsr }

/-- tensors/functions/Einsum2params.hpp:103-113 `transfer12`; triples (x,y,r). -/
def P2.transfer12 : Nat → List (List Nat × List Nat × List Nat) → View → View → View → P2 → Res (Nat × P2)
  | i, [], _, _, _, p => .ok (i, p)
  | i, l :: ls, x, y, r, p => do
    let d ← dimAt x.dims l.1
    let td ← put p.td i d
    let a ← combine x.strides l.1
    let tsx ← put p.tsx i a
    let b ← combine y.strides l.2.1
    let tsy ← put p.tsy i b
    let c ← combine r.strides l.2.2
    let tsr ← put p.tsr i c
    transfer12 (i + 1) ls x y r { p with td := td, tsx := tsx, tsy := tsy, tsr := tsr }

/-- tensors/functions/Einsum2params.hpp:115-124 `contract`. -/
def P2.contract : Nat → List (List Nat × List Nat) → View → View → P2 → Res (Nat × P2)
  | i, [], _, _, p => .ok (i, p)
  | i, l :: ls, x, y, p => do
    let d ← dimAt x.dims l.1
    let e ← dimAt y.dims l.2
    let cd ← put p.cd i (min d e)
    let a ← combine x.strides l.1
    let csx ← put p.csx i a
    let b ← combine y.strides l.2
    let csy ← put p.csy i b
    contract (i + 1) ls x y { p with cd := cd, csx := csx, csy := csy }

/-- tensors/functions/Einsum2params.hpp:126-136 `convolve_back`. -/
def P2.convolveBack : Nat → List (List Nat × List Nat) → View → View → P2 → Res (Nat × P2)
  | i, [], _, _, p => .ok (i, p)
  | i, l :: ls, x, y, p => do
    let d ← dimAt x.dims l.1
    let e ← dimAt y.dims l.2
    let cd ← put p.cd i (min d e)
    let a ← combine x.strides l.1
    let csx ← put p.csx i a
    let b ← combine y.strides l.2
    let csy ← put p.csy i b
    let lim ← put p.lim i true
    convolveBack (i + 1) ls x y { p with cd := cd, csx := csx, csy := csy, lim := lim }

/-- The six assertions shared by `make_params`, `make_params_back0`, `make_params_back1`,
tensors/functions/Einsum2.hpp:118-123, 158-163, 198-203. -/
def Form2.check (f : Form2) : Res Unit := do
  Res.assrt (decide (f.xsums.length ≤ 3))
  Res.assrt (decide (f.ysums.length ≤ 3))
  Res.assrt (decide (f.bcasts.length ≤ 3))
  Res.assrt (decide (f.transfers.length + f.xr.length + f.yr.length + f.conv.length ≤ 4))
  Res.assrt (decide (f.xy.length + f.conv.length ≤ 3))
  Res.assrt (decide (f.triple.length ≤ 1))

/-- tensors/functions/Einsum2.hpp:105-142 `make_params`. -/
def makeParams (f : Form2) (r x y : View) : Res P2 := do
  f.check
  let a ← fillAxes 0 f.xsums x (fun _ => 1) (fun _ => 0)
  let b ← fillAxes 0 f.ysums y (fun _ => 1) (fun _ => 0)
  let c ← fillAxes 0 f.bcasts r (fun _ => 1) (fun _ => 0)
  let p : P2 := { xsd := a.1, xss := a.2, ysd := b.1, yss := b.2, bd := c.1, bs := c.2 }
  let q ← P2.transfer1 0 f.xr x r p
  let q ← P2.transfer1 q.1 (f.conv.map fun t => (t.1, t.2.2)) x r q.2
  let q ← P2.transfer2 q.1 f.yr y r q.2
  let q ← P2.transfer12 q.1 f.transfers x y r q.2
  let q ← P2.contract 0 f.xy x y q.2
  let q ← P2.contract q.1 (f.conv.map fun t => (t.1, t.2.1)) x y q.2
  .ok q.2

/-- tensors/functions/Einsum2.hpp:145-182 `make_params_back0`. -/
def makeParamsBack0 (f : Form2) (x r y : View) : Res P2 := do
  f.check
  let a ← fillAxes 0 f.bcasts r (fun _ => 1) (fun _ => 0)
  let b ← fillAxes 0 f.ysums y (fun _ => 1) (fun _ => 0)
  let c ← fillAxes 0 f.xsums x (fun _ => 1) (fun _ => 0)
  let p : P2 := { xsd := a.1, xss := a.2, ysd := b.1, yss := b.2, bd := c.1, bs := c.2 }
  let q ← P2.transfer1 0 (f.conv.map fun t => (t.2.2, t.1)) r x p
  let q ← P2.transfer1 q.1 (f.xr.map fun t => (t.2, t.1)) r x q.2
  let q ← P2.transfer2 q.1 (f.xy.map fun t => (t.2, t.1)) y x q.2
  let q ← P2.transfer12 q.1 (f.transfers.map fun t => (t.2.2, t.2.1, t.1)) r y x q.2
  let q ← P2.convolveBack 0 (f.conv.map fun t => (t.2.2, t.2.1)) r y q.2
  let q ← P2.contract q.1 (f.yr.map fun t => (t.2, t.1)) r y q.2
  .ok q.2

/-- tensors/functions/Einsum2.hpp:185-222 `make_params_back1`. -/
def makeParamsBack1 (f : Form2) (y r x : View) : Res P2 := do
  f.check
  let a ← fillAxes 0 f.bcasts r (fun _ => 1) (fun _ => 0)
  let b ← fillAxes 0 f.xsums x (fun _ => 1) (fun _ => 0)
  let c ← fillAxes 0 f.ysums y (fun _ => 1) (fun _ => 0)
  let p : P2 := { xsd := a.1, xss := a.2, ysd := b.1, yss := b.2, bd := c.1, bs := c.2 }
  let q ← P2.transfer1 0 (f.yr.map fun t => (t.2, t.1)) r y p
  let q ← P2.transfer2 q.1 (f.conv.map fun t => (t.1, t.2.1)) x y q.2
  let q ← P2.transfer2 q.1 f.xy x y q.2
  let q ← P2.transfer12 q.1 (f.transfers.map fun t => (t.2.2, t.1, t.2.1)) r x y q.2
  let q ← P2.contract 0 (f.xr.map fun t => (t.2, t.1)) r x q.2
  let q ← P2.contract q.1 (f.conv.map fun t => (t.2.2, t.1)) r x q.2
  .ok q.2

variable {α : Type _}

/-- The three nested summation loops, tensors/functions/Einsum2.hpp:256-260, 262-266. -/
def sum3 [Zero α] [Add α] (m : Buf α) (d s : Nat → Nat) (base : Nat) : Res α :=
  loop (d 0) (0 : α) fun s0 v => loop (d 1) v fun s1 v => loop (d 2) v fun s2 v => do
    let a ← m.read (base + s0 * s 0 + s1 * s 1 + s2 * s 2)
    .ok (v + a)

/-- The three nested broadcast loops, tensors/functions/Einsum2.hpp:272-275. -/
def bcast3 [Add α] (d s : Nat → Nat) (base : Nat) (v : α) (m : Buf α) : Res (Buf α) :=
  loop (d 0) m fun b0 m => loop (d 1) m fun b1 m => loop (d 2) m fun b2 m => do
    let c := base + b0 * s 0 + b1 * s 1 + b2 * s 2
    let a ← m.read c
    m.write c (a + v)

/-- tensors/functions/Einsum2.hpp:228-278 `add_einsum(r,x,y,params)`.  The last term of `yoffs_t` and `roffs_t`
uses `tstride_x[3]`. -/
def run2 [Zero α] [Add α] [Mul α] (p : P2) (r x y : View) (m : Buf α) : Res (Buf α) :=
  loop (p.td 0) m fun t0 m => loop (p.td 1) m fun t1 m => loop (p.td 2) m fun t2 m => loop (p.td 3) m fun t3 m => do
    let xt := t0 * p.tsx 0 + t1 * p.tsx 1 + t2 * p.tsx 2 + t3 * p.tsx 3
    let yt := t0 * p.tsy 0 + t1 * p.tsy 1 + t2 * p.tsy 2 + t3 * p.tsx 3
    let rt := t0 * p.tsr 0 + t1 * p.tsr 1 + t2 * p.tsr 2 + t3 * p.tsx 3
    let v ← loop (p.cd 0) (0 : α) fun c0 v => loop (p.cd 1) v fun c1 v => loop (p.cd 2) v fun c2 v => do
      let xc := xt + c0 * p.csx 0 + c1 * p.csx 1 + c2 * p.csx 2
      let yc := yt + c0 * p.csy 0 + c1 * p.csy 1 + c2 * p.csy 2
      let a ← sum3 m p.xsd p.xss (x.off + xc)
      let b ← sum3 m p.ysd p.yss (y.off + yc)
      .ok (v + a * b)
    bcast3 p.bd p.bs (r.off + rt) v m

/-- `for(int c=lo; c<hi; c++)`. -/
def loopFrom {σ : Type _} (lo hi : Nat) (s : σ) (body : Nat → σ → Res σ) : Res σ :=
  loop (hi - lo) s fun i s => body (lo + i) s

/-- Signed displacement of a limited contraction index. -/
def P2.disp (p : P2) (i c : Nat) : Int := if p.lim i then -((c * p.csx i : Nat) : Int) else ((c * p.csx i : Nat) : Int)

/-- tensors/functions/Einsum2.hpp:304-306: lower limit (`int` arithmetic; the value is a natural number). -/
def P2.cmin (p : P2) (i t : Nat) : Nat :=
  if p.lim i then (max ((p.cd i : Int) - 1 - ((p.td i : Int) - 1 - (t : Int))) 0).toNat else 0

/-- tensors/functions/Einsum2.hpp:307-309: upper limit. -/
def P2.cmax (p : P2) (i t : Nat) : Nat := if p.lim i then min (p.cd i) (t + 1) else p.cd i

/-- Address arithmetic below the start of the allocation is undefined. -/
def addrI (a : Int) : Res Nat := if 0 ≤ a then .ok a.toNat else .ub

/-- tensors/functions/Einsum2.hpp:283-337 `add_einsum_convo_back0`. -/
def runConvoBack [Zero α] [Add α] [Mul α] (p : P2) (r x y : View) (m : Buf α) : Res (Buf α) :=
  loop (p.td 0) m fun t0 m => loop (p.td 1) m fun t1 m => loop (p.td 2) m fun t2 m => loop (p.td 3) m fun t3 m => do
    let xt := t0 * p.tsx 0 + t1 * p.tsx 1 + t2 * p.tsx 2 + t3 * p.tsx 3
    let yt := t0 * p.tsy 0 + t1 * p.tsy 1 + t2 * p.tsy 2 + t3 * p.tsx 3
    let rt := t0 * p.tsr 0 + t1 * p.tsr 1 + t2 * p.tsr 2 + t3 * p.tsx 3
    let v ← loopFrom (p.cmin 0 t0) (p.cmax 0 t0) (0 : α) fun c0 v =>
      loopFrom (p.cmin 1 t1) (p.cmax 1 t1) v fun c1 v => loopFrom (p.cmin 2 t2) (p.cmax 2 t2) v fun c2 v => do
        let xc : Int := ((x.off + xt : Nat) : Int) + p.disp 0 c0 + p.disp 1 c1 + p.disp 2 c2
        let yc := yt + c0 * p.csy 0 + c1 * p.csy 1 + c2 * p.csy 2
        let xa ← addrI xc
        let a ← sum3 m p.xsd p.xss xa
        let b ← sum3 m p.ysd p.yss (y.off + yc)
        .ok (v + a * b)
    bcast3 p.bd p.bs (r.off + rt) v m

/-- tensors/functions/Einsum2.hpp:80-84 `add_einsum(r,x,y)`. -/
def addEinsum2 [Zero α] [Add α] [Mul α] (f : Form2) (r x y : View) (m : Buf α) : Res (Buf α) := do
  let p ← makeParams f r x y
  run2 p r x y m

/-- tensors/functions/Einsum2.hpp:86-93 `add_einsum_back0(x,r,y)`. -/
def addEinsum2Back0 [Zero α] [Add α] [Mul α] (f : Form2) (x r y : View) (m : Buf α) : Res (Buf α) := do
  let p ← makeParamsBack0 f x r y
  if 0 < f.conv.length then runConvoBack p x r y m else run2 p x r y m

/-- tensors/functions/Einsum2.hpp:95-99 `add_einsum_back1(y,r,x)`. -/
def addEinsum2Back1 [Zero α] [Add α] [Mul α] (f : Form2) (y r x : View) (m : Buf α) : Res (Buf α) := do
  let p ← makeParamsBack1 f y r x
  run2 p y r x m

/-- tensors/functions/Einsum2.hpp:65-68: the extents on the axes of the convolution letters. -/
def setConv (xdims ydims : List Nat) : List (List Nat × List Nat × List Nat) → List (Option Int) → Res (List (Option Int))
  | [], d => .ok d
  | t :: ts, d => do
    let a ← dimAt xdims t.1
    let b ← dimAt ydims t.2.1
    setConv xdims ydims ts (t.2.2.foldl (fun d j => d.set j (some ((a : Int) - (b : Int) + 1))) d)

/-- tensors/functions/Einsum2.hpp:44-68: the dims of the result allocated by `operator()`. -/
def resultDims2 (f : Form2) (xdims ydims rdims : List Nat) : Res (List (Option Int)) := do
  Res.assrt (decide (rdims.length = f.bcastIds.length))
  let t ← dimsById f.xids xdims (List.replicate f.tail none)
  let t ← dimsById f.yids ydims t
  let t := setBcast f.bcastIds rdims t
  setConv xdims ydims f.conv (f.rids.map fun id => (t.getD id none).map Int.ofNat)

end Einsum
end Cnine
