import Verif.Model.Basic

/-!
# Permutation objects (combinatorial/cpermutation.hpp)

A `permutation` owns an array of `n` ints; a cell of a fresh array has no value yet.
-/

namespace Cnine

/-- combinatorial/cpermutation.hpp:30-31: the array `p` of `n` cells; `none` is a cell that was never written. -/
abbrev PObj := List (Option Int)

namespace PObj

/-- combinatorial/cpermutation.hpp:207-213: `p[i]` as a value; undefined out of range and for a cell without a value. -/
def rd (p : PObj) (i : Int) : Res Int :=
  if 0 ≤ i then
    match p[i.toNat]? with
    | some (some v) => .ok v
    | _ => .ub
  else .ub

/-- combinatorial/cpermutation.hpp:211-213, 222-224: `p[i]=v`; undefined out of range. -/
def wr (p : PObj) (i v : Int) : Res PObj :=
  if 0 ≤ i ∧ i.toNat < p.length then .ok (p.set i.toNat (some v)) else .ub

/-- combinatorial/cpermutation.hpp:41-49: a new array. -/
def raw (n : Nat) : PObj := List.replicate n none

/-- `for(int i=0; i<n; i++) r.p[i]=f(i)` on a fresh array, the loop of most constructors. -/
def fill (n : Nat) (f : Nat → Res Int) : Res PObj :=
  Res.forM (List.range n) (raw n) fun r i => do
    let v ← f i
    r.wr i v

/-- combinatorial/cpermutation.hpp:97-107 (and 51-55): `identity`. -/
def identity (n : Nat) : Res PObj := fill n fun i => .ok i

/-- combinatorial/cpermutation.hpp:63-67: from a vector. -/
def ofVec (x : List Int) : Res PObj := fill x.length fun i => Res.get x i

/-- combinatorial/cpermutation.hpp:73-76: the copy constructor. -/
def copy (x : PObj) : Res PObj := fill x.length fun i => x.rd i

/-- combinatorial/cpermutation.hpp:82-86: `*this=x` for another object `x` (the old array of `*this` is freed). -/
def assign (x : PObj) : Res PObj := fill x.length fun i => x.rd i

/-- combinatorial/cpermutation.hpp:82-86: `x=x`; after `delete[] p; p=new int[n]` the array read is the new one itself. -/
def assignSelf (x : PObj) : Res PObj :=
  Res.forM (List.range x.length) (raw x.length) fun r i => do
    let v ← r.rd i
    r.wr i v

/-- combinatorial/cpermutation.hpp:109-115: `transposition`. -/
def transposition (n : Nat) (i j : Int) : Res PObj := do
  let p ← fill n fun k => .ok k
  let p ← p.wr i j
  p.wr j i

/-- `for(int i=a; i<b; i++) p.p[i]=f(i)`. -/
def fillFrom (a b : Int) (f : Int → Int) (p : PObj) : Res PObj :=
  Res.forM (List.range (b - a).toNat) p fun p k => p.wr (a + k) (f (a + k))

/-- combinatorial/cpermutation.hpp:117-131: `contiguous_cycle`. -/
def contiguousCycle (n : Nat) (a b : Int) : Res PObj :=
  if a < b then do
    let p ← fillFrom 1 a id (raw n)
    let p ← fillFrom (b + 1) (n + 1) id p
    let p ← fillFrom a b (· + 1) p
    p.wr (b - 1) a
  else do
    let p ← fillFrom 1 b id (raw n)
    let p ← fillFrom (a + 1) (n + 1) id p
    let p ← fillFrom (b + 1) (a + 1) (· - 1) p
    p.wr (b - 1) a

/-- combinatorial/cpermutation.hpp:133-147: `random`; `ts[i]` is the number drawn in round `i`. -/
def random (n : Nat) (ts : List Nat) : Res PObj := do
  let r ← Res.forM (List.range n) (raw n, List.range n) fun (s : PObj × List Nat) i => do
    let t ← Res.get ts i
    let x ← Res.get s.2 t
    let p ← s.1.wr i x
    .ok (p, s.2.eraseIdx t)
  .ok r.1

/-- combinatorial/cpermutation.hpp:155-157 (168-170, 183-185): the inner loop of `ordering`; `none` is `least==-1`. -/
def least (n : Nat) (done : List Bool) (less : Nat → Nat → Bool) : Option Nat :=
  (List.range n).foldl (fun (l : Option Nat) j =>
    if !(done.getD j true) && (match l with | none => true | some l => less j l) then some j else l) none

/-- combinatorial/cpermutation.hpp:168-172: one round of `ordering`; `done[-1]` is undefined. -/
def orderStep (n : Nat) (less : Nat → Nat → Bool) (s : PObj × List Bool) (i : Nat) : Res (PObj × List Bool) :=
  match least n s.2 less with
  | none => .ub
  | some l => do
    let p ← s.1.wr i l
    .ok (p, s.2.set l true)

/-- combinatorial/cpermutation.hpp:164-175: `ordering(n,less)`. -/
def orderingBy (n : Nat) (less : Nat → Nat → Bool) : Res PObj := do
  let r ← Res.forM (List.range n) (raw n, List.replicate n false) (orderStep n less)
  .ok r.1

/-- combinatorial/cpermutation.hpp:149-162: `ordering(v)`. -/
def ordering {α : Type} [LT α] [DecidableLT α] (v : List α) : Res PObj :=
  orderingBy v.length fun j l => match v[j]?, v[l]? with
    | some a, some b => decide (a < b)
    | _, _ => false

/-- combinatorial/cpermutation.hpp:177-190: `reverse_ordering(v)`. -/
def reverseOrdering {α : Type} [LT α] [DecidableLT α] (v : List α) : Res PObj :=
  orderingBy v.length fun j l => match v[j]?, v[l]? with
    | some a, some b => decide (b < a)
    | _, _ => false

/-- combinatorial/cpermutation.hpp:215-220: `inv(i)`. -/
def invAt (p : PObj) (i : Int) : Res Int :=
  go (List.range p.length)
where
  /-- The loop over `j`. -/
  go : List Nat → Res Int
  | [] => .throw
  | j :: js => do
    let v ← p.rd j
    if v = i then .ok j else go js

/-- combinatorial/cpermutation.hpp:226-230: `operator==`. -/
def eq (p x : PObj) : Res Bool :=
  if p.length ≠ x.length then .ok false else go (List.range p.length)
where
  /-- The loop over `i`. -/
  go : List Nat → Res Bool
  | [] => .ok true
  | i :: is => do
    let a ← p.rd i
    let b ← x.rd i
    if a ≠ b then .ok false else go is

/-- combinatorial/cpermutation.hpp:253-262, 232-236: `inverse`, `inv()`, `operator!`. -/
def inverse (p : PObj) : Res PObj :=
  Res.forM (List.range p.length) (raw p.length) fun r i => do
    let v ← p.rd i
    r.wr v i

/-- combinatorial/cpermutation.hpp:242-246: `operator*`. -/
def mul (p x : PObj) : Res PObj := fill p.length fun i => do
  let a ← x.rd i
  p.rd a

/-- combinatorial/cpermutation.hpp:248-251: `p*=x` for another object `x`. -/
def mulAssign (p x : PObj) : Res PObj :=
  Res.forM (List.range p.length) p fun p i => do
    let a ← p.rd i
    let v ← x.rd a
    p.wr i v

/-- combinatorial/cpermutation.hpp:248-251: `p*=p`. -/
def mulAssignSelf (p : PObj) : Res PObj :=
  Res.forM (List.range p.length) p fun p i => do
    let a ← p.rd i
    let v ← p.rd a
    p.wr i v

/-- combinatorial/cpermutation.hpp:264-271: `is_valid`. -/
def isValid (p : PObj) : Res Bool :=
  go (List.range p.length) (List.replicate p.length false)
where
  /-- The loop over `i`. -/
  go : List Nat → List Bool → Res Bool
  | [], _ => .ok true
  | i :: is, a => do
    let v ← p.rd i
    if v < 0 ∨ v > (p.length : Int) - 1 then .ok false
    else if a.getD v.toNat true then .ok false
    else go is (a.set v.toNat true)

/-- combinatorial/cpermutation.hpp:273-280: `reorder`. -/
def reorder {α : Type} (p : PObj) (x : List α) : Res (List α) :=
  Res.forM (List.range x.length) [] fun r i => do
    let v ← p.rd i
    let a ← if 0 ≤ v then Res.get x v.toNat else .ub
    .ok (r ++ [a])

end PObj

end Cnine
