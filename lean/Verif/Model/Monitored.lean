import Verif.Model.Observers

/-!
# Model of utility/monitored.hpp

An object made when first asked for.  The function that makes it is given by what its successive calls return (a null pointer is
`none`); the pointer to it may be empty (`std::function` without a target, whose call throws `bad_function_call`).  The one
monitor is the list of the addresses it watches; how it learns of deletions is in `Model/Observers`.
-/

namespace Cnine.Mon

variable {α : Type _}

/-- utility/monitored.hpp:33-37; `self` is the address, `calls` counts the calls of `make_obj`. -/
structure Mon (α : Type _) where
  self : Nat
  watched : Bool
  obj : Option α
  maker : Option (Nat → Option α)
  calls : Nat

/-- utility/monitored.hpp:43-50. -/
def new (self : Nat) (watched : Bool) (f : Nat → Option α) : Mon α := ⟨self, watched, none, some f, 0⟩

/-- utility/monitored.hpp:59-62: `make_obj` is not copied. -/
def copy (self : Nat) (x : Mon α) : Mon α := ⟨self, x.watched, x.obj, none, 0⟩

/-- utility/monitored.hpp:82-86, 103-105. -/
def make (M : Mon α) (T : List Nat) : Res (Mon α × List Nat) :=
  match M.maker with
  | none => .throw
  | some f => .ok ({ M with obj := f M.calls, calls := M.calls + 1 }, if M.watched then setIns M.self T else T)

/-- utility/monitored.hpp:73, 78. -/
def ensure (M : Mon α) (T : List Nat) : Res (Mon α × List Nat) :=
  match M.obj with
  | none => make M T
  | some _ => .ok (M, T)

/-- utility/monitored.hpp:72-75 (and 68-70). -/
def access (M : Mon α) (T : List Nat) : Res (α × Mon α × List Nat) := do
  let r ← ensure M T
  match r.1.obj with
  | none => .ub
  | some a => .ok (a, r)

/-- utility/monitored.hpp:77-80. -/
def shared (M : Mon α) (T : List Nat) : Res (Option α × Mon α × List Nat) := do
  let r ← ensure M T
  .ok (r.1.obj, r)

/-- Successive uses: `true` is utility/monitored.hpp:72-75, `false` is 77-80. -/
def uses : List Bool → Mon α → List Nat → Res (List (Option α) × Mon α × List Nat)
  | [], M, T => .ok ([], M, T)
  | true :: l, M, T => do
    let r ← access M T
    let s ← uses l r.2.1 r.2.2
    .ok (some r.1 :: s.1, s.2)
  | false :: l, M, T => do
    let r ← shared M T
    let s ← uses l r.2.1 r.2.2
    .ok (r.1 :: s.1, s.2)

end Cnine.Mon
