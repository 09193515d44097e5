import Verif.Model.IntMem

/-!
# Integer tensors as lists of rows

The reference for programs on integer tensors: a variable holds a list of rows of `k` integers, where it is kept, and the rows that were sent to the GPU by `get_arrg`.  There is no
memory.  The outcome is `ub` where the reference makes no promise: indices out of range; a tensor that was moved away, unless it is assigned to or destroyed; views; a tensor assigned to
itself; an assignment to a tensor that has an array on the GPU or from one that has; the way back from the GPU; `get_arrg` when no array on the host was made or when rows were appended since.
-/

namespace Cnine

variable {α : Type}

namespace IntRef

/-- A tensor: the length of its rows; its rows, unless they were moved away; whether it is on the GPU; what was sent to the GPU. -/
structure Ten (α : Type) where
  k : Nat
  rows : Option (List (List α))
  gpu : Bool
  cache : Option (List (List α))
deriving DecidableEq

/-- The tensor in a variable. -/
def look (g : List (Option (Ten α))) (v : Nat) : Res (Ten α) :=
  match g[v]? with
  | some (some r) => .ok r
  | _ => .ub

/-- A tensor of which the rows were not moved away. -/
def full (g : List (Option (Ten α))) (v : Nat) : Res (Ten α × List (List α)) := do
  let r ← look g v
  match r.rows with
  | some L => .ok (r, L)
  | none => .ub

/-- A tensor on the host of which the rows were not moved away. -/
def hosted (g : List (Option (Ten α))) (v : Nat) : Res (Ten α × List (List α)) := do
  let (r, L) ← full g v
  if r.gpu then .ub else .ok (r, L)

/-- One command. -/
def step (g : List (Option (Ten α))) : IntMem.Cmd α → Res (List (Option (Ten α)) × Option (List (List α)))
  | .make k => if k = 0 then .ub else .ok (g ++ [some ⟨k, some [], false, none⟩], none)
  | .push v x => do
    let (r, L) ← hosted g v
    if x.length = r.k then .ok (g.set v (some { r with rows := some (L ++ [x]) }), none) else .throw
  | .set v i j x => do
    let (r, L) ← hosted g v
    match L[i]? with
    | none => .ub
    | some l => if j < r.k then .ok (g.set v (some { r with rows := some (L.set i (l.set j x)) }), none) else .ub
  | .row v i => do
    let (_, L) ← hosted g v
    match L[i]? with
    | none => .ub
    | some l => .ok (g, some [l])
  | .copy w => do
    let (x, L) ← full g w
    .ok (g ++ [some ⟨x.k, some L, x.gpu, none⟩], none)
  | .move w => do
    let (x, L) ← full g w
    .ok (g.set w (some ⟨x.k, none, x.gpu, none⟩) ++ [some { x with rows := some L }], none)
  | .assign v w => do
    let r ← look g v
    let (x, L) ← full g w
    if v = w then .ub
    else if r.rows = none ∨ (r.gpu = false ∧ r.cache = none ∧ x.gpu = false) then .ok (g.set v (some ⟨x.k, some L, x.gpu, none⟩), none)
    else .ub
  | .moveAssign v w => do
    let _ ← look g v
    let (x, _) ← full g w
    if v = w then .ub else .ok ((g.set w (some ⟨x.k, none, x.gpu, none⟩)).set v (some x), none)
  | .view _ => .ub
  | .toDevice v b => do
    let (r, L) ← full g v
    if r.gpu = b then .ok (g, none)
    else if b = true ∧ L ≠ [] then .ok (g.set v (some ⟨r.k, some L, true, none⟩), none)
    else .ub
  | .garr v => do
    let (r, L) ← full g v
    if r.gpu then .ok (g, some L)
    else
      match r.cache with
      | some C => if C.length = L.length then .ok (g, some C) else .ub
      | none => if L = [] then .ub else .ok (g.set v (some { r with cache := some L }), some L)
  | .destroy v => do
    let _ ← look g v
    .ok (g.set v none, none)

/-- A program. -/
def run (g : List (Option (Ten α))) : List (IntMem.Cmd α) → Res (List (Option (Ten α)) × List (List (List α)))
  | [] => .ok (g, [])
  | c :: cs => do
    let (g, x) ← step g c
    let (g, xs) ← run g cs
    .ok (g, x.toList ++ xs)

end IntRef

end Cnine
