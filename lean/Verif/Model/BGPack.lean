import Verif.Model.Basic
import Mathlib.Order.Defs.LinearOrder

/-!
# Packs of tensors under keys, and gradients

tensors/BGtensorPack.hpp and utility/diff_class.hpp.  A part is a handle on an array (the copy constructor of `TensorView`, tensors/TensorView.hpp:206-211, shares the
array; `copy()` makes a new one).  Memory is the list of arrays made so far; an array has its sizes `I` (batch, grid, device) and its contents, one value `α` with
addition: all parts under one key have the same shape.
-/

namespace Cnine

variable {K I α : Type}

namespace BGPack

/-- tensors/BGtensorPack.hpp:32-36: `_nbatch`, `_gdims`, `_dev` together, and the map from keys to shared pointers, in the order of the keys. -/
structure Pack (K I : Type) where
  vars : I
  parts : List (K × Option Nat)

/-- The contents of array `a` (the dereferenced pointers of tensors/BGtensorPack.hpp:169-173). -/
def deref (m : List (I × α)) (a : Option Nat) : Res (I × α) :=
  match a with
  | none => .ub
  | some a => match m[a]? with
    | some x => .ok x
    | none => .ub

/-- `map::find`, tensors/BGtensorPack.hpp:170. -/
def find [DecidableEq K] (k : K) : List (K × Option Nat) → Option (Option Nat)
  | [] => none
  | (k', v) :: l => if k = k' then some v else find k l

/-- `map::emplace`, tensors/BGtensorPack.hpp:184: nothing happens if the key is there. -/
def emplace [LinearOrder K] (k : K) (v : Option Nat) : List (K × Option Nat) → List (K × Option Nat)
  | [] => [(k, v)]
  | (k', v') :: l => if k < k' then (k, v) :: (k', v') :: l else if k = k' then (k', v') :: l else (k', v') :: emplace k v l

/-- tensors/BGtensorPack.hpp:169-173 `operator[](x)`: the pointer under a key. -/
def at' [DecidableEq K] (p : Pack K I) (k : K) : Res (Option Nat) :=
  match find k p.parts with
  | none => .throw
  | some a => .ok a

/-- tensors/BGtensorPack.hpp:62-68, the copy constructor: the pointers are copied. -/
def copyCtor (x : Pack K I) : Pack K I := x

/-- tensors/BGtensorPack.hpp:86-91 `copy()`: new arrays, in the order of the keys. -/
def copy (m : List (I × α)) (x : Pack K I) : Res (List (I × α) × Pack K I) := do
  let (m, l) ← Res.forM x.parts (m, []) fun (m, l) (k, a) => do
    let v ← deref m a
    .ok (m ++ [v], l ++ [(k, some m.length)])
  .ok (m, ⟨x.vars, l⟩)

/-- tensors/BGtensorPack.hpp:77-84 `operator=(x)`: for the keys of the target; `x.tensors[key]` makes a null pointer if there is none. -/
def assign [DecidableEq K] [DecidableEq I] (m : List (I × α)) (r x : Pack K I) : Res (List (I × α)) := do
  Res.assrt (decide (r.vars = x.vars))
  Res.forM r.parts m fun m (k, a) => do
    let w ← deref m ((find k x.parts).getD none)
    let v ← deref m a
    .ok (m.set (a.getD 0) (v.1, w.2))

/-- `p.second->add(y)` (or `subtract`) on the arrays `a` and `b`, tensors/BGtensorPack.hpp:307, 313. -/
def upd (op : α → α → α) (m : List (I × α)) (a b : Option Nat) : Res (List (I × α)) := do
  let v ← deref m a
  let w ← deref m b
  .ok (m.set (a.getD 0) (v.1, op v.2 w.2))

/-- tensors/BGtensorPack.hpp:305-308 `add(x)`. -/
def add [DecidableEq K] [Add α] (m : List (I × α)) (r x : Pack K I) : Res (List (I × α)) := do
  Res.assrt (decide (x.parts.length = r.parts.length))
  Res.forM r.parts m fun m (k, a) => do
    let b ← at' x k
    upd (· + ·) m a b

/-- tensors/BGtensorPack.hpp:311-314 `subtract(x)`: the loop runs over the parts of `x`. -/
def subtract [DecidableEq K] [Sub α] (m : List (I × α)) (r x : Pack K I) : Res (List (I × α)) := do
  Res.assrt (decide (x.parts.length = r.parts.length))
  Res.forM x.parts m fun m (k, a) => do
    let b ← at' x k
    upd (· - ·) m a b

/-- tensors/BGtensorPack.hpp:284-288 `operator+(y)`. -/
def plus [DecidableEq K] [Add α] (m : List (I × α)) (x y : Pack K I) : Res (List (I × α) × Pack K I) := do
  let (m, r) ← copy m x
  let m ← add m r y
  .ok (m, r)

/-- tensors/BGtensorPack.hpp:290-294 `operator-(y)`. -/
def minus [DecidableEq K] [Sub α] (m : List (I × α)) (x y : Pack K I) : Res (List (I × α) × Pack K I) := do
  let (m, r) ← copy m x
  let m ← subtract m r y
  .ok (m, r)

/-- tensors/BGtensorPack.hpp:175-185 `insert(key,x)`; `x` is the array of the new part. -/
def insert [LinearOrder K] [DecidableEq I] (m : List (I × α)) (p : Pack K I) (k : K) (x : Nat) : Res (Pack K I) := do
  let v ← deref m (some x)
  let vars := if p.parts.length = 0 then v.1 else p.vars
  Res.assrt (decide (v.1 = vars))
  .ok ⟨vars, emplace k (some x) p.parts⟩

/-- tensors/BGtensorPack.hpp:187-189 `remove(key)`. -/
def remove [DecidableEq K] (p : Pack K I) (k : K) : Pack K I := { p with parts := p.parts.filter fun q => q.1 ≠ k }

/-- tensors/BGtensorPack.hpp:203-208 `zip(y,lambda)` with a function that updates the array of the first part by that of the second: `y.tensors[key]` makes a null
pointer if there is none. -/
def zip [DecidableEq K] (op : α → α → α) (m : List (I × α)) (r y : Pack K I) : Res (List (I × α)) :=
  Res.forM r.parts m fun m (k, a) => upd op m a ((find k y.parts).getD none)

/-! ### Gradients -/

/-- utility/diff_class.hpp:30: the array of an object and of its gradient, if there is one. -/
structure Diff where
  arr : Nat
  grad : Option Nat

/-- utility/diff_class.hpp:56-59 `add_to_grad(x)` for a class whose copy constructor shares the array (`share`) or copies it. -/
def addToGrad [Add α] (share : Bool) (m : List (I × α)) (o : Diff) (x : Nat) : Res (List (I × α) × Diff) := do
  match o.grad with
  | some g => do
    let m ← upd (· + ·) m (some g) (some x)
    .ok (m, o)
  | none =>
    if share then .ok (m, { o with grad := some x }) else do
      let v ← deref m (some x)
      .ok (m ++ [v], { o with grad := some m.length })

/-- utility/diff_class.hpp:67-70 `add_to_grad(x,c)`: an array of zeros like `x` is made if there is none. -/
def addToGradC [Zero α] [Add α] (smul : α → α) (m : List (I × α)) (o : Diff) (x : Nat) : Res (List (I × α) × Diff) := do
  let (m, o) ← (match o.grad with
    | some _ => .ok (m, o)
    | none => do
      let v ← deref m (some x)
      .ok (m ++ [(v.1, 0)], { o with grad := some m.length }))
  let m ← upd (fun a b => a + smul b) m o.grad (some x)
  .ok (m, o)

/-- utility/diff_class.hpp:72-80 `get_grad()`: an array of zeros is made if there is none. -/
def getGrad [Zero α] (m : List (I × α)) (o : Diff) : Res (List (I × α) × Diff) :=
  match o.grad with
  | some _ => .ok (m, o)
  | none => do
    let v ← deref m (some o.arr)
    .ok (m ++ [(v.1, 0)], { o with grad := some m.length })

/-- What backward passes do with one object (utility/diff_class.hpp:56-80). -/
inductive GCmd (α : Type)
  | add (x : Nat)
  | addC (c : α → α) (x : Nat)
  | get

/-- One of them (utility/diff_class.hpp:56-80). -/
def gstep [Zero α] [Add α] (share : Bool) (s : List (I × α) × Diff) : GCmd α → Res (List (I × α) × Diff)
  | .add x => addToGrad share s.1 s.2 x
  | .addC c x => addToGradC c s.1 s.2 x
  | .get => getGrad s.1 s.2

/-- A sequence of them (utility/diff_class.hpp:56-80). -/
def grun [Zero α] [Add α] (share : Bool) (s : List (I × α) × Diff) (p : List (GCmd α)) : Res (List (I × α) × Diff) := Res.forM p s (gstep share)

end BGPack

end Cnine
