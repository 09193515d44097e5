import Verif.Model.Owners

/-!
# Containers as values

The reference for programs with `associative_container`: every container is a map to values, nothing is shared.  The reference for programs with `cachedf`:
every wrapper holds the value.
-/

namespace Cnine

namespace Assoc

variable {κ α : Type} [LinearOrder κ]

namespace Vals

/-- The map of a container that exists. -/
def cont (g : List (Option (OMap κ α))) (c : Nat) : Res (OMap κ α) :=
  match g[c]? with
  | some (some m) => .ok m
  | _ => .ub

/-- One command. -/
def step (d : α) (g : List (Option (OMap κ α))) : Cmd κ α → Res (List (Option (OMap κ α)) × Out κ α)
  | .make => .ok (g ++ [some []], .none)
  | .copy c => do
    let m ← cont g c
    .ok (g ++ [some m], .none)
  | .move c => do
    let m ← cont g c
    .ok (g.set c (some []) ++ [some m], .none)
  | .get c k => do
    let m ← cont g c
    match OMap.find? k m with
    | some x => .ok (g, .val x)
    | none => .ok (g.set c (some (OMap.set k d m)), .val d)
  | .put c k x => do
    let m ← cont g c
    .ok (g.set c (some (OMap.set k x m)), .none)
  | .look c k => do
    let m ← cont g c
    match OMap.find? k m with
    | some x => .ok (g, .val x)
    | none => .throw
  | .first c => do
    let m ← cont g c
    match m with
    | [] => .ub
    | e :: _ => .ok (g, .val e.2)
  | .insert c k x => do
    let m ← cont g c
    match OMap.find? k m with
    | some _ => .throw
    | none => .ok (g.set c (some (OMap.set k x m)), .none)
  | .share _ _ _ _ => .ub
  | .has c k => do
    let m ← cont g c
    .ok (g, .bool (OMap.find? k m).isSome)
  | .size c => do
    let m ← cont g c
    .ok (g, .num m.length)
  | .list c => do
    let m ← cont g c
    .ok (g, .vals m)
  | .destroy c => do
    let _ ← cont g c
    .ok (g.set c none, .none)

/-- A program. -/
def run (d : α) (g : List (Option (OMap κ α))) : List (Cmd κ α) → Res (List (Option (OMap κ α)) × List (Out κ α))
  | [] => .ok (g, [])
  | c :: cs => do
    let r ← step d g c
    let r' ← run d r.1 cs
    .ok (r'.1, r.2 :: r'.2)

end Vals

/-- Commands that do not put the pointer of one container into another. -/
def Plain : Cmd κ α → Prop
  | .share _ _ _ _ => False
  | _ => True

end Assoc

namespace Cached

variable {α : Type}

/-- One command of the reference: wrappers with their value, if it was made, and the number of calls of functions; a wrapper that holds a value must not be
copied, and one made from a function that returns a value must not be called. -/
def valStep (F : Nat → Nat → α) (g : List (Option (Option α × Mk)) × Nat) : Cmd → Res ((List (Option (Option α × Mk)) × Nat) × Option α)
  | .make m => .ok ((g.1 ++ [some (none, m)], g.2), none)
  | .copy o =>
    match g.1[o]? with
    | some (some (none, m)) => .ok ((g.1 ++ [some (none, m)], g.2), none)
    | _ => .ub
  | .call o =>
    match g.1[o]? with
    | some (some (some x, _)) => .ok (g, some x)
    | some (some (none, .ptr f)) => .ok ((g.1.set o (some (some (F f g.2), .ptr f)), g.2 + 1), some (F f g.2))
    | some (some (none, .null)) => .throw
    | _ => .ub
  | .destroy o =>
    match g.1[o]? with
    | some (some _) => .ok ((g.1.set o none, g.2), none)
    | _ => .ub

/-- A program of the reference. -/
def valRun (F : Nat → Nat → α) (g : List (Option (Option α × Mk)) × Nat) : List Cmd → Res ((List (Option (Option α × Mk)) × Nat) × List α)
  | [] => .ok (g, [])
  | c :: cs => do
    let r ← valStep F g c
    let r' ← valRun F r.1 cs
    .ok (r'.1, r.2.toList ++ r'.2)

end Cached

namespace Keys

/-- What a map read: the value of the last assignment to the key, `d` if there was none. -/
def readLast {κ υ : Type} [DecidableEq κ] (d : υ) (f : κ → Option υ) : List (κ × Option υ) → List υ
  | [] => []
  | (k, none) :: cs => (f k).getD d :: readLast d f cs
  | (k, some v) :: cs => readLast d (fun j => if j = k then some v else f j) cs

end Keys

end Cnine
