import Verif.Model.Basic

/-!
# Model of utility/observable.hpp

A `std::set` of pointers is a list without repetitions in the order of insertion (the code iterates by address; the order plays
no part in the final state).  `on_deleted_action` is recorded in a log; what it does is modelled with the banks (`Model/Banks`).
-/

namespace Cnine

/-- `std::set::insert` (e.g. utility/observable.hpp:52, 107). -/
def setIns {α : Type _} [DecidableEq α] (x : α) (l : List α) : List α := if x ∈ l then l else l ++ [x]

/-- `std::set::erase` (e.g. utility/observable.hpp:58, 119). -/
def setDel {α : Type _} [DecidableEq α] (x : α) (l : List α) : List α := l.filter fun y => decide (y ≠ x)

/-- utility/observable.hpp:33-34. -/
structure Target where
  owner : Nat
  observers : List Nat
  deriving Repr, DecidableEq

/-- The targets (`observable`) and observers alive, by address, and the calls of `on_deleted_action` made so far. -/
structure OWorld where
  tg : Nat → Option Target
  ob : Nat → Option (List Nat)
  log : List (Nat × Nat)

namespace OWorld

/-- No objects. -/
def empty : OWorld := ⟨fun _ => none, fun _ => none, []⟩

/-- Change of one target. -/
def setT (w : OWorld) (t : Nat) (x : Option Target) : OWorld := { w with tg := fun q => if q = t then x else w.tg q }

/-- Change of one observer. -/
def setO (w : OWorld) (o : Nat) (x : Option (List Nat)) : OWorld := { w with ob := fun q => if q = o then x else w.ob q }

/-- utility/observable.hpp:36-37: a new target (whose owner is the object itself, as in every use). -/
def newTarget (w : OWorld) (t : Nat) : OWorld := w.setT t (some ⟨t, []⟩)

/-- utility/observable.hpp:83, 90-92: a new observer. -/
def newObserver (w : OWorld) (o : Nat) : OWorld := w.setO o (some [])

/-- utility/observable.hpp:50-53. -/
def attach (w : OWorld) (t o : Nat) : Res OWorld :=
  match w.tg t with
  | none => .ub
  | some T => .ok (w.setT t (some { T with observers := setIns o T.observers }))

/-- utility/observable.hpp:55-59. -/
def detach (w : OWorld) (t o : Nat) : Res OWorld :=
  match w.tg t with
  | none => .ub
  | some T => .ok (w.setT t (some { T with observers := setDel o T.observers }))

/-- utility/observable.hpp:104-108 (= 110-114; the constructors 85-88, 94-98 are 83 followed by this). -/
def add (w : OWorld) (o t : Nat) : Res OWorld :=
  match w.ob o with
  | none => .ub
  | some l =>
    if t ∈ l then .ok w
    else do
      let w' ← w.attach t o
      .ok (w'.setO o (some (setIns t l)))

/-- utility/observable.hpp:116-120. -/
def remove (w : OWorld) (o t : Nat) : Res OWorld :=
  match w.ob o with
  | none => .ub
  | some l =>
    if t ∉ l then .ok w
    else do
      let w' ← w.detach t o
      .ok (w'.setO o (some (setDel t l)))

/-- utility/observable.hpp:122-127. -/
def deletedSignal (w : OWorld) (o x : Nat) : Res OWorld :=
  match w.ob o with
  | none => .ub
  | some l => do
    Res.assrt (x ∈ l)
    let w' := w.setO o (some (setDel x l))
    .ok { w' with log := w'.log ++ [(o, x)] }

/-- The loop of utility/observable.hpp:40-41. -/
def signalAll (w : OWorld) (x : Nat) : List Nat → Res OWorld
  | [] => .ok w
  | o :: os => do
    let w' ← w.deletedSignal o x
    signalAll w' x os

/-- utility/observable.hpp:39-42.  (An exception inside a destructor terminates the program.) -/
def delTarget (w : OWorld) (t : Nat) : Res OWorld :=
  match w.tg t with
  | none => .ub
  | some T => do
    let w' ← w.signalAll T.owner T.observers
    .ok (w'.setT t none)

/-- The loop of utility/observable.hpp:75-76. -/
def detachAll (w : OWorld) (o : Nat) : List Nat → Res OWorld
  | [] => .ok w
  | t :: ts => do
    let w' ← w.detach t o
    detachAll w' o ts

/-- utility/observable.hpp:74-77. -/
def delObserver (w : OWorld) (o : Nat) : Res OWorld :=
  match w.ob o with
  | none => .ub
  | some l => do
    let w' ← w.detachAll o l
    .ok (w'.setO o none)

/-- The implicit copy constructor of utility/observable.hpp:68: `o'` becomes a copy of `o`. -/
def copyObserver (w : OWorld) (o' o : Nat) : Res OWorld :=
  match w.ob o with
  | none => .ub
  | some l => .ok (w.setO o' (some l))

/-- The implicit copy assignment of utility/observable.hpp:30 (line 48 deletes only the copy constructor): `a = b`. -/
def assignTarget (w : OWorld) (a b : Nat) : Res OWorld :=
  match w.tg a, w.tg b with
  | some _, some B => .ok (w.setT a (some B))
  | _, _ => .ub

/-- A call by the client. -/
inductive Op where
  | newTarget (t : Nat)
  | newObserver (o : Nat)
  | add (o t : Nat)
  | remove (o t : Nat)
  | delTarget (t : Nat)
  | delObserver (o : Nat)
  deriving Repr, DecidableEq

/-- utility/observable.hpp:36-127: one call. -/
def step (w : OWorld) : Op → Res OWorld
  | .newTarget t => .ok (w.newTarget t)
  | .newObserver o => .ok (w.newObserver o)
  | .add o t => w.add o t
  | .remove o t => w.remove o t
  | .delTarget t => w.delTarget t
  | .delObserver o => w.delObserver o

/-- A history of calls (utility/observable.hpp:36-127). -/
def run (w : OWorld) : List Op → Res OWorld
  | [] => .ok w
  | o :: os => do
    let w' ← w.step o
    run w' os

end OWorld

end Cnine
