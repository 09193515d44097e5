import Verif.Model.CView

/-!
# Scalars and bundles of scalars

legacy/scalar/RscalarA.hpp and legacy/scalar/CscalarA.hpp: one number (`nbu==-1`), or an array of `nbu` numbers.  The two classes have the same layout, so the type of the numbers is
a parameter.  `nbu` is -1 (`none`) or not negative.  An object is a value: the functions that change it take the array element by element, so an argument may be the object itself;
assignment to itself has a function of its own.  Numbers are an arbitrary algebraic structure with exact arithmetic.  `assert` throws.  `CNINE_UNIMPL` only prints.

Not modelled: printing, the random numbers themselves.
-/

namespace Cnine

variable {α β γ δ ε : Type}

/-- legacy/scalar/RscalarA.hpp:29-31, legacy/scalar/CscalarA.hpp:31-33: `none` in `val` or in a cell is a number that was never set; `none` in `arr` is the null pointer. -/
structure Scal (β : Type) where
  nbu : Option Nat
  val : Option β
  arr : Option (List (Option β))
deriving DecidableEq

namespace Scal

/-- The value of `val`; reading a `float` that was never set is undefined. -/
def rdVal (x : Scal β) : Res β :=
  match x.val with
  | some v => .ok v
  | none => .ub

/-- `arr[i]`. -/
def rdArr (x : Scal β) (i : Nat) : Res β :=
  match x.arr with
  | some l =>
    match l[i]? with
    | some (some v) => .ok v
    | _ => .ub
  | none => .ub

/-- `arr[i]=v`. -/
def wrArr (x : Scal β) (i : Nat) (v : β) : Res (Scal β) :=
  match x.arr with
  | some l => if i < l.length then .ok { x with arr := some (l.set i (some v)) } else .ub
  | none => .ub

/-- `if(nbu==-1) val=…; else for(i<nbu) arr[i]=…`, as in legacy/scalar/RscalarA.hpp:91-92, 118-119: `one` gives the number, `each` the numbers of the array. -/
def put (r : Scal β) (one : Res β) (each : Nat → Res β) : Res (Scal β) :=
  match r.nbu with
  | none => do
    let b ← one
    .ok { r with val := some b }
  | some n => loop n r fun i r => do
    let b ← each i
    r.wrArr i b

/-- `if(nbu==-1) val+=…; else for(i<nbu) arr[i]+=…`, as in legacy/scalar/RscalarA.hpp:281-282. -/
def upd (r : Scal β) (one : β → Res β) (each : Nat → β → Res β) : Res (Scal β) :=
  match r.nbu with
  | none => do
    let a ← r.rdVal
    let b ← one a
    .ok { r with val := some b }
  | some n => loop n r fun i r => do
    let a ← r.rdArr i
    let b ← each i a
    r.wrArr i b

/-! ### Construction -/

/-- legacy/scalar/RscalarA.hpp:54-58, 84-87, legacy/scalar/CscalarA.hpp:56-60, 86-89: `d` is what a new number holds, nothing (`float`) or 0 (`complex<float>`). -/
def raw (d : Option β) (nbu : Option Nat) : Scal β := ⟨nbu, d, nbu.map fun n => List.replicate n d⟩

/-- legacy/scalar/RscalarA.hpp:66-72, legacy/scalar/CscalarA.hpp:68-74: one number. -/
def single (v : β) : Scal β := ⟨none, some v, none⟩

/-- legacy/scalar/RscalarA.hpp:89-93, 109-113, legacy/scalar/CscalarA.hpp:91-95, 114-130. -/
def filled (d : Option β) (nbu : Option Nat) (v : β) : Res (Scal β) := (raw d nbu).put (.ok v) fun _ => .ok v

/-- legacy/scalar/CscalarA.hpp:97-112: random numbers `f`; when `nbu` is -1 only the real part is random. -/
def gaussianC [Zero α] (f : Nat → α) (nbu : Option Nat) : Res (Scal (Cx α)) := (raw (some 0) nbu).put (.ok ⟨f 0, 0⟩) fun i => .ok ⟨f (2 * i), f (2 * i + 1)⟩

/-- legacy/scalar/CscalarA.hpp:76-84: one random number. -/
def gaussianC1 (f : Nat → α) : Scal (Cx α) := single ⟨f 0, f 1⟩

/-- legacy/scalar/RscalarA.hpp:115-120, 267-273, legacy/scalar/CscalarA.hpp:132-137, 325-331: a function of every number, and with it 260-265 `conj()`,
legacy/scalar/CscalarA.hpp:236-262, 296-308 `real()`, `imag()`, `conj()`. -/
def map (d : Option γ) (fn : β → γ) (x : Scal β) : Res (Scal γ) :=
  (raw d x.nbu).put (do let a ← x.rdVal; .ok (fn a)) fun i => do let a ← x.rdArr i; .ok (fn a)

/-- legacy/scalar/RscalarA.hpp:125-132, legacy/scalar/CscalarA.hpp:143-150. -/
def copy (d : Option β) (x : Scal β) : Res (Scal β) :=
  match x.nbu with
  | none => .ok ⟨none, x.val, none⟩
  | some _ => x.map d id

/-- legacy/scalar/RscalarA.hpp:143-154, legacy/scalar/CscalarA.hpp:161-172 `operator=(x)` for another object `x`: `val` stays when `x` is a bundle. -/
def assign (d : Option β) (r x : Scal β) : Res (Scal β) := do
  let y ← copy d x
  .ok { y with val := if x.nbu = none then y.val else r.val }

/-- legacy/scalar/RscalarA.hpp:143-154 for the object itself: the array is freed, and the new one is copied to itself, which `std::copy` does not allow. -/
def assignSelf (d : Option β) (x : Scal β) : Res (Scal β) :=
  match x.nbu with
  | none => .ok { x with arr := none }
  | some n => if n = 0 then .ok (raw d x.nbu) else .ub

/-- legacy/scalar/RscalarA.hpp:134-141, 156-167: the array moves; the pair is the new object and what is left. -/
def move (r x : Scal β) : Scal β × Scal β :=
  match x.nbu with
  | none => (⟨none, x.val, none⟩, x)
  | some n => (⟨some n, r.val, x.arr⟩, { x with arr := none })

/-- legacy/scalar/RscalarA.hpp:177-187, legacy/scalar/CscalarA.hpp:192-202. -/
def ofVec (d : Option β) (v : List β) : Scal β :=
  match v with
  | [a] => ⟨none, some a, none⟩
  | _ => ⟨some v.length, d, some (v.map some)⟩

/-- legacy/scalar/RscalarA.hpp:189-195, legacy/scalar/CscalarA.hpp:204-210. -/
def toVec (x : Scal β) : Res (List β) :=
  match x.nbu with
  | none => do
    let a ← x.rdVal
    .ok [a]
  | some n => loop n [] fun i l => do
    let a ← x.rdArr i
    .ok (l ++ [a])

/-! ### Access -/

/-- legacy/scalar/RscalarA.hpp:205-218, legacy/scalar/CscalarA.hpp:220-228. -/
def value (x : Scal β) : Res β := do
  Res.assrt (x.nbu = none)
  x.rdVal

/-- legacy/scalar/RscalarA.hpp:220-236, legacy/scalar/CscalarA.hpp:230-234. -/
def setValue (x : Scal β) (v : β) : Res (Scal β) := do
  Res.assrt (x.nbu = none)
  .ok { x with val := some v }

/-- legacy/scalar/RscalarA.hpp:240-243: the loop ends at the first difference. -/
def eqBody [DecidableEq β] (x y : Scal β) : Res Bool :=
  match x.nbu with
  | none => do
    let a ← x.rdVal
    let b ← y.rdVal
    .ok (decide (a = b))
  | some n => loop n true fun i (t : Bool) => if t then do
      let a ← x.rdArr i
      let b ← y.rdArr i
      .ok (decide (a = b))
    else .ok false

/-- legacy/scalar/RscalarA.hpp:238-244, legacy/scalar/CscalarA.hpp:274-280 `operator==`. -/
def eq [DecidableEq β] (x y : Scal β) : Res Bool := do
  Res.assrt (x.nbu = y.nbu)
  eqBody x y

/-- legacy/scalar/RscalarA.hpp:250-258, legacy/scalar/CscalarA.hpp:286-294. -/
def setZero [Zero β] (x : Scal β) : Res (Scal β) := x.put (.ok 0) fun _ => .ok 0

/-! ### Changing every number -/

/-- One argument, without a check of `nbu`: legacy/scalar/RscalarA.hpp:377-380, 387-390, 397-411, 424-433, legacy/scalar/CscalarA.hpp:264-272, 464-467, 479-482, 489-507, 524-533. -/
def zip (f : β → γ → β) (r : Scal β) (x : Scal γ) : Res (Scal β) :=
  r.upd (fun a => do let b ← x.rdVal; .ok (f a b)) fun i a => do let b ← x.rdArr i; .ok (f a b)

/-- Two arguments, without a check: legacy/scalar/RscalarA.hpp:382-385, 392-395, 413-422, 435-444, legacy/scalar/CscalarA.hpp:411-444, 469-477, 484-487, 509-522, 535-545. -/
def zip2 (f : β → γ → δ → β) (r : Scal β) (x : Scal γ) (y : Scal δ) : Res (Scal β) :=
  r.upd (fun a => do let b ← x.rdVal; let c ← y.rdVal; .ok (f a b c)) fun i a => do let b ← x.rdArr i; let c ← y.rdArr i; .ok (f a b c)

/-- Three arguments, without a check: legacy/scalar/CscalarA.hpp:446-449. -/
def zip3 (f : β → γ → δ → ε → β) (r : Scal β) (x : Scal γ) (y : Scal δ) (z : Scal ε) : Res (Scal β) :=
  r.upd (fun a => do let b ← x.rdVal; let c ← y.rdVal; let e ← z.rdVal; .ok (f a b c e))
    fun i a => do let b ← x.rdArr i; let c ← y.rdArr i; let e ← z.rdArr i; .ok (f a b c e)

/-- One argument, with a check: legacy/scalar/RscalarA.hpp:279-295, 309-313, 358-368, legacy/scalar/CscalarA.hpp:337-383, 398-402, 451-455. -/
def czip (f : β → γ → β) (r : Scal β) (x : Scal γ) : Res (Scal β) := do
  Res.assrt (r.nbu = x.nbu)
  r.zip f x

/-- Two arguments, with a check: legacy/scalar/RscalarA.hpp:315-348, 370-375, legacy/scalar/CscalarA.hpp:404-409, 457-462. -/
def czip2 (f : β → γ → δ → β) (r : Scal β) (x : Scal γ) (y : Scal δ) : Res (Scal β) := do
  Res.assrt (r.nbu = x.nbu)
  Res.assrt (r.nbu = y.nbu)
  r.zip2 f x y

/-- Three arguments, with a check: legacy/scalar/RscalarA.hpp:350-356. -/
def czip3 (f : β → γ → δ → ε → β) (r : Scal β) (x : Scal γ) (y : Scal δ) (z : Scal ε) : Res (Scal β) := do
  Res.assrt (r.nbu = x.nbu)
  Res.assrt (r.nbu = y.nbu)
  Res.assrt (r.nbu = z.nbu)
  r.zip3 f x y z

/-- legacy/scalar/RscalarA.hpp:297-307, legacy/scalar/CscalarA.hpp:385-395 `add_sum(v)`: `nbu` is that of the first element. -/
def addSum [Add β] (r : Scal β) (v : List (Scal β)) : Res (Scal β) :=
  match v with
  | [] => .ok r
  | x :: _ =>
    match x.nbu with
    | none => Res.forM v r fun r y => do
      let a ← r.rdVal
      let b ← y.rdVal
      .ok { r with val := some (a + b) }
    | some _ => .ok r

/-- legacy/scalar/CscalarA.hpp:310-323 `sum(v)`. -/
def sum [Zero β] [Add β] (v : List (Scal β)) : Res (Scal β) :=
  match v with
  | [] => .ok (single 0)
  | x :: _ =>
    match x.nbu with
    | none => do
      let s ← Res.forM v 0 fun s y => do
        let b ← y.rdVal
        .ok (s + b)
      .ok (single s)
    | some _ => .ok (single 0)

/-! ### Real scalars -/

section Real

/-- legacy/scalar/RscalarA.hpp:279-289 `add(x)`, `add_conj(x)`. -/
def add [Add β] : Scal β → Scal β → Res (Scal β) := czip (· + ·)

/-- legacy/scalar/RscalarA.hpp:291-295, legacy/scalar/CscalarA.hpp:349-353 `add(x,c)`. -/
def addC [Add β] [Mul β] (c : β) : Scal β → Scal β → Res (Scal β) := czip fun a b => a + c * b

/-- legacy/scalar/RscalarA.hpp:309-313. -/
def subtract [Sub β] : Scal β → Scal β → Res (Scal β) := czip (· - ·)

/-- legacy/scalar/RscalarA.hpp:315-320. -/
def addMinus [Add β] [Sub β] : Scal β → Scal β → Scal β → Res (Scal β) := czip2 fun a b c => a + (b - c)

/-- legacy/scalar/RscalarA.hpp:322-334 `add_prod(x,y)`, `add_prodc1(x,y)`. -/
def addProd [Add β] [Mul β] : Scal β → Scal β → Scal β → Res (Scal β) := czip2 fun a b c => a + b * c

/-- legacy/scalar/RscalarA.hpp:336-348 `add_div(x,y)`, `add_div_back0(g,y)`. -/
def addDiv [Add β] [Div β] : Scal β → Scal β → Scal β → Res (Scal β) := czip2 fun a b c => a + b / c

/-- legacy/scalar/RscalarA.hpp:350-356 `add_div_back1(g,x,y)`: one number and bundles have different formulas; `pm2` is `pow(·,-2.0)`. -/
def addDivBack1 [Sub β] [Mul β] [Div β] (pm2 : β → β) (r g x y : Scal β) : Res (Scal β) := do
  Res.assrt (r.nbu = g.nbu)
  Res.assrt (r.nbu = x.nbu)
  Res.assrt (r.nbu = y.nbu)
  r.upd (fun a => do let b ← g.rdVal; let c ← x.rdVal; let e ← y.rdVal; .ok (a - b * c / e / e))
    fun i a => do let b ← g.rdArr i; let c ← x.rdArr i; let e ← y.rdArr i; .ok (a - b * c * pm2 e)

/-- legacy/scalar/RscalarA.hpp:358-368 `add_norm2(x)`, `add_norm2_to(r)`. -/
def addNorm2 [Add β] [Mul β] : Scal β → Scal β → Res (Scal β) := czip fun a b => a + b * b

/-- legacy/scalar/RscalarA.hpp:370-375 `add_norm2_back(g,x)`. -/
def addNorm2Back [Add β] [Mul β] [OfNat β 2] : Scal β → Scal β → Scal β → Res (Scal β) := czip2 fun a b c => a + 2 * b * c

/-- legacy/scalar/RscalarA.hpp:377-380; `abs` is `std::abs`. -/
def addAbs [Add β] (abs : β → β) : Scal β → Scal β → Res (Scal β) := zip fun a b => a + abs b

/-- legacy/scalar/RscalarA.hpp:382-385 `add_abs_back(g,x)`; `pos` is `>0`. -/
def addAbsBack [Add β] [Neg β] (pos : β → Bool) : Scal β → Scal β → Scal β → Res (Scal β) := zip2 fun a g x => a + if pos x then g else -g

/-- legacy/scalar/RscalarA.hpp:387-390; `pow` is `std::pow(·,p)`. -/
def addPow [Add β] [Mul β] (pow : β → β) (c : β) : Scal β → Scal β → Res (Scal β) := zip fun a b => a + c * pow b

/-- legacy/scalar/RscalarA.hpp:392-395 `add_pow_back(g,x,p,c)`. -/
def addPowBack [Add β] [Mul β] (pow : β → β) (c : β) : Scal β → Scal β → Scal β → Res (Scal β) := zip2 fun a g x => a + c * g * pow x

/-- legacy/scalar/RscalarA.hpp:397-400. -/
def addExp [Add β] (exp : β → β) : Scal β → Scal β → Res (Scal β) := zip fun a b => a + exp b

/-- legacy/scalar/RscalarA.hpp:402-411. -/
def addReLU [Add β] [Mul β] (pos : β → Bool) (c : β) : Scal β → Scal β → Res (Scal β) := zip fun a x => a + if pos x then x else c * x

/-- legacy/scalar/RscalarA.hpp:413-422 `add_ReLU_back(g,x,c)`. -/
def addReLUBack [Add β] [Mul β] (pos : β → Bool) (c : β) : Scal β → Scal β → Scal β → Res (Scal β) := zip2 fun a g x => a + if pos x then g else c * g

/-- legacy/scalar/RscalarA.hpp:424-433. -/
def addSigmoid [Add β] [One β] [Div β] [Neg β] (exp : β → β) : Scal β → Scal β → Res (Scal β) := zip fun a x => a + 1 / (1 + exp (-x))

/-- legacy/scalar/RscalarA.hpp:435-444 `add_sigmoid_back(g,x)`. -/
def addSigmoidBack [Add β] [Sub β] [Mul β] [One β] : Scal β → Scal β → Scal β → Res (Scal β) := zip2 fun a g x => a + x * (1 - x) * g

end Real

/-! ### Complex scalars -/

section Complex

variable [Zero α] [Add α] [Sub α] [Neg α] [Mul α]

/-- legacy/scalar/CscalarA.hpp:264-267. -/
def setReal : Scal (Cx α) → Scal α → Res (Scal (Cx α)) := zip fun a b => ⟨b, a.im⟩

/-- legacy/scalar/CscalarA.hpp:269-272. -/
def setImag : Scal (Cx α) → Scal α → Res (Scal (Cx α)) := zip fun a b => ⟨a.re, b⟩

/-- legacy/scalar/CscalarA.hpp:355-359 `add_to_real(x)`. -/
def addToReal : Scal (Cx α) → Scal α → Res (Scal (Cx α)) := czip fun a b => a + ⟨b, 0⟩

/-- legacy/scalar/CscalarA.hpp:361-365 `add_to_imag(x)`. -/
def addToImag : Scal (Cx α) → Scal α → Res (Scal (Cx α)) := czip fun a b => a + ⟨0, b⟩

/-- legacy/scalar/CscalarA.hpp:367-371. -/
def addConj : Scal (Cx α) → Scal (Cx α) → Res (Scal (Cx α)) := czip fun a b => a + b.conj

/-- legacy/scalar/CscalarA.hpp:373-377, the argument that changes comes first. -/
def addRealTo : Scal α → Scal (Cx α) → Res (Scal α) := czip fun a b => a + b.re

/-- legacy/scalar/CscalarA.hpp:379-383. -/
def addImagTo : Scal α → Scal (Cx α) → Res (Scal α) := czip fun a b => a + b.im

/-- legacy/scalar/CscalarA.hpp:411-414. -/
def addProdU : Scal (Cx α) → Scal (Cx α) → Scal (Cx α) → Res (Scal (Cx α)) := zip2 fun a b c => a + b * c

/-- legacy/scalar/CscalarA.hpp:416-424 `add_prodc(x,y)`, `add_prodc1(x,y)`. -/
def addProdc : Scal (Cx α) → Scal (Cx α) → Scal (Cx α) → Res (Scal (Cx α)) := zip2 fun a b c => a + b * c.conj

/-- legacy/scalar/CscalarA.hpp:426-429. -/
def addProdcc : Scal (Cx α) → Scal (Cx α) → Scal (Cx α) → Res (Scal (Cx α)) := zip2 fun a b c => a + (b * c).conj

/-- legacy/scalar/CscalarA.hpp:431-434 `add_prod(x,y)` with a real scalar. -/
def addProdR : Scal (Cx α) → Scal (Cx α) → Scal α → Res (Scal (Cx α)) := zip2 fun a b c => a + b.scale c

/-- legacy/scalar/CscalarA.hpp:451-455 `add_norm2_to(r)`, the argument that changes comes first. -/
def addNorm2To : Scal α → Scal (Cx α) → Res (Scal α) := czip fun a b => a + (b * b.conj).re

/-- legacy/scalar/CscalarA.hpp:457-462 `add_norm2_back(g,y)`. -/
def addNorm2BackC : Scal (Cx α) → Scal α → Scal (Cx α) → Res (Scal (Cx α)) := czip2 fun a g y => a + (y + y.conj).scale g

/-- legacy/scalar/CscalarA.hpp:464-467; `abs` is `std::abs`. -/
def addAbsC (abs : Cx α → α) : Scal (Cx α) → Scal (Cx α) → Res (Scal (Cx α)) := zip fun a b => a + ⟨abs b, 0⟩

/-- legacy/scalar/CscalarA.hpp:469-477 `add_abs_back(g,x)`. -/
def addAbsBackC (pos : α → Bool) : Scal (Cx α) → Scal (Cx α) → Scal (Cx α) → Res (Scal (Cx α)) :=
  zip2 fun a g x => a + ⟨if pos x.re then g.re else -g.re, if pos x.im then g.im else -g.im⟩

/-- legacy/scalar/CscalarA.hpp:494-507. -/
def addReLUC (pos : α → Bool) (c : α) : Scal (Cx α) → Scal (Cx α) → Res (Scal (Cx α)) :=
  zip fun a x => a + ⟨if pos x.re then x.re else c * x.re, if pos x.im then x.im else c * x.im⟩

/-- legacy/scalar/CscalarA.hpp:509-522. -/
def addReLUBackC (pos : α → Bool) (c : α) : Scal (Cx α) → Scal (Cx α) → Scal (Cx α) → Res (Scal (Cx α)) :=
  zip2 fun a g x => a + ⟨if pos x.re then g.re else c * g.re, if pos x.im then g.im else c * g.im⟩

end Complex

end Scal

end Cnine
