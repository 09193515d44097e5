import Verif.Model.PoolMem

/-!
# Array pools as lists of lists

The reference for programs on array pools: a variable holds a list of lists, where it is kept, and what was sent to the GPU when `gpu_arrs` was first called.  There is no
memory.  The outcome is `ub` where the reference makes no promise: the use of a pool that was moved away, a pool assigned to itself, views, and changes or copies of a pool
that is on the GPU.
-/

namespace Cnine

variable {α : Type}

namespace PoolRef

/-- A pool: its lists, unless they were moved away; whether it is on the GPU; what was sent to the GPU. -/
structure Pool (α : Type) where
  lists : Option (List (List α))
  gpu : Bool
  cache : Option (List (List α))
deriving DecidableEq

/-- The pool in a variable. -/
def look (g : List (Option (Pool α))) (v : Nat) : Res (Pool α) :=
  match g[v]? with
  | some (some r) => .ok r
  | _ => .ub

/-- A pool of which the lists were not moved away. -/
def full (g : List (Option (Pool α))) (v : Nat) : Res (Pool α × List (List α)) := do
  let r ← look g v
  match r.lists with
  | some L => .ok (r, L)
  | none => .ub

/-- A pool on the host of which the lists were not moved away. -/
def hosted (g : List (Option (Pool α))) (v : Nat) : Res (Pool α × List (List α)) := do
  let (r, L) ← full g v
  if r.gpu then .ub else .ok (r, L)

/-- One command. -/
def step (g : List (Option (Pool α))) : PoolMem.Cmd α → Res (List (Option (Pool α)) × Option (List (List α)))
  | .make => .ok (g ++ [some ⟨some [], false, none⟩], none)
  | .push v l => do
    let (r, L) ← hosted g v
    .ok (g.set v (some { r with lists := some (L ++ [l]) }), none)
  | .set v i j a => do
    let (r, L) ← hosted g v
    match L[i]? with
    | none => .throw
    | some l => if j < l.length then .ok (g.set v (some { r with lists := some (L.set i (l.set j a)) }), none) else .throw
  | .get v i => do
    let (_, L) ← hosted g v
    match L[i]? with
    | none => .throw
    | some l => .ok (g, some [l])
  | .copy w => do
    let (_, L) ← hosted g w
    .ok (g ++ [some ⟨some L, false, none⟩], none)
  | .move w => do
    let (r, L) ← full g w
    .ok (g.set w (some { r with lists := none }) ++ [some ⟨some L, r.gpu, none⟩], none)
  | .assign v w => do
    let r ← look g v
    let (x, L) ← full g w
    if v = w then .ub else .ok (g.set v (some ⟨some L, x.gpu, r.cache⟩), none)
  | .moveAssign v w => do
    let r ← look g v
    let (x, L) ← full g w
    if v = w then .ub else .ok ((g.set w (some { x with lists := none })).set v (some ⟨some L, x.gpu, r.cache⟩), none)
  | .view _ => .ub
  | .toDevice v b => do
    let (r, _) ← full g v
    .ok (g.set v (some { r with gpu := b }), none)
  | .gpuArrs v => do
    let (r, L) ← full g v
    if r.gpu then .throw else .ok (g.set v (some { r with cache := some (r.cache.getD L) }), some (r.cache.getD L))
  | .destroy v => do
    let _ ← look g v
    .ok (g.set v none, none)

/-- A program. -/
def run (g : List (Option (Pool α))) : List (PoolMem.Cmd α) → Res (List (Option (Pool α)) × List (List (List α)))
  | [] => .ok (g, [])
  | c :: cs => do
    let (g, x) ← step g c
    let (g, xs) ← run g cs
    .ok (g, x.toList ++ xs)

end PoolRef

end Cnine
