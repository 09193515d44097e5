import Verif.Model.Basic
import Verif.Model.OMap

/-!
# Models of containers/associative_container.hpp, wrappers/cachedf.hpp, containers/object_pack.hpp, containers/object_pack_s.hpp,
containers/shared_object_pack.hpp, and the maps with several keys

Objects made by `new` are in `heap` (`none` after `delete`).  `OBJ()` is the value `d`.  The assignments and `clear()` of `associative_container` do not
compile when they are used (`_map.second` at line 284) and are left out.
-/

namespace Cnine

/-! ### containers/associative_container.hpp -/

namespace Assoc

variable {κ α : Type} [LinearOrder κ]

/-- The objects, and the containers (containers/associative_container.hpp:183; `none` after destruction). -/
structure St (κ α : Type) where
  heap : List (Option α)
  maps : List (Option (OMap κ Nat))

/-- What a program may do; containers are numbered in the order in which they are made.  `make`: containers/associative_container.hpp:190; `copy`:
196-199; `move`: 201-204; `get`, `put`: 233-236 read or assigned to; `look`: 238-241; `first`: 243-249; `insert`: 256-264; `share c k c' k'`:
`c.insert(k,c'.pointer_to(k'))` (228-231, 251-254); `has`: 266-268; `size`: 224-226; `list`: 270-280; `destroy`: 185-188. -/
inductive Cmd (κ α : Type) where
  | make
  | copy (c : Nat)
  | move (c : Nat)
  | get (c : Nat) (k : κ)
  | put (c : Nat) (k : κ) (x : α)
  | look (c : Nat) (k : κ)
  | first (c : Nat)
  | insert (c : Nat) (k : κ) (x : α)
  | share (c : Nat) (k : κ) (c' : Nat) (k' : κ)
  | has (c : Nat) (k : κ)
  | size (c : Nat)
  | list (c : Nat)
  | destroy (c : Nat)

/-- What a command returns (containers/associative_container.hpp:224-280). -/
inductive Out (κ α : Type) where
  | none
  | val (x : α)
  | bool (b : Bool)
  | num (n : Nat)
  | vals (l : List (κ × α))

/-- A container that exists (containers/associative_container.hpp:183). -/
def cont (s : St κ α) (c : Nat) : Res (OMap κ Nat) :=
  match s.maps[c]? with
  | some (some m) => .ok m
  | _ => .ub

/-- `*p` (e.g. containers/associative_container.hpp:235). -/
def deref (heap : List (Option α)) (p : Nat) : Res α :=
  match heap[p]? with
  | some (some x) => .ok x
  | _ => .ub

/-- `delete p` (containers/associative_container.hpp:187). -/
def del (heap : List (Option α)) (p : Nat) : Res (List (Option α)) :=
  match heap[p]? with
  | some (some _) => .ok (heap.set p none)
  | _ => .ub

/-- `*p=x` (e.g. containers/associative_container.hpp:235). -/
def assign (heap : List (Option α)) (p : Nat) (x : α) : Res (List (Option α)) :=
  match heap[p]? with
  | some (some _) => .ok (heap.set p (some x))
  | _ => .ub

/-- containers/associative_container.hpp:197-198. -/
def copyAll (heap : List (Option α)) (acc : OMap κ Nat) : List (κ × Nat) → Res (List (Option α) × OMap κ Nat)
  | [] => .ok (heap, acc)
  | (k, p) :: m => do
    let x ← deref heap p
    copyAll (heap ++ [some x]) (OMap.set k heap.length acc) m

/-- containers/associative_container.hpp:186-187. -/
def delAll (heap : List (Option α)) : List (κ × Nat) → Res (List (Option α))
  | [] => .ok heap
  | (_, p) :: m => do
    let heap ← del heap p
    delAll heap m

/-- The loop over the values (containers/associative_container.hpp:270-280, 110-116). -/
def listAll (heap : List (Option α)) : List (κ × Nat) → Res (List (κ × α))
  | [] => .ok []
  | (k, p) :: m => do
    let x ← deref heap p
    let l ← listAll heap m
    .ok ((k, x) :: l)

/-- `pointer_to(key)` (containers/associative_container.hpp:228-231): a new object if the key is not there. -/
def pointerTo (d : α) (s : St κ α) (c : Nat) (k : κ) : Res (St κ α × Nat) := do
  let m ← cont s c
  match OMap.find? k m with
  | some p => .ok (s, p)
  | none => .ok ({ heap := s.heap ++ [some d], maps := s.maps.set c (some (OMap.set k s.heap.length m)) }, s.heap.length)

/-- One command (containers/associative_container.hpp:185-280). -/
def step (d : α) (s : St κ α) (c : Cmd κ α) : Res (St κ α × Out κ α) :=
  match c with
  | .make => .ok ({ s with maps := s.maps ++ [some []] }, .none)
  | .copy c => do
    let m ← cont s c
    let r ← copyAll s.heap [] m
    .ok ({ heap := r.1, maps := s.maps ++ [some r.2] }, .none)
  | .move c => do
    let m ← cont s c
    .ok ({ s with maps := s.maps.set c (some []) ++ [some m] }, .none)
  | .get c k => do
    let r ← pointerTo d s c k
    let x ← deref r.1.heap r.2
    .ok (r.1, .val x)
  | .put c k x => do
    let r ← pointerTo d s c k
    let heap ← assign r.1.heap r.2 x
    .ok ({ r.1 with heap := heap }, .none)
  | .look c k => do
    let m ← cont s c
    match OMap.find? k m with
    | none => .throw
    | some p => do
      let x ← deref s.heap p
      .ok (s, .val x)
  | .first c => do
    let m ← cont s c
    match m with
    | [] => .ub
    | (_, p) :: _ => do
      let x ← deref s.heap p
      .ok (s, .val x)
  | .insert c k x => do
    let m ← cont s c
    match OMap.find? k m with
    | some _ => .throw
    | none => .ok ({ heap := s.heap ++ [some x], maps := s.maps.set c (some (OMap.set k s.heap.length m)) }, .none)
  | .share c k c' k' => do
    let r ← pointerTo d s c' k'
    let m ← cont r.1 c
    match OMap.find? k m with
    | some _ => .throw
    | none => .ok ({ r.1 with maps := r.1.maps.set c (some (OMap.set k r.2 m)) }, .none)
  | .has c k => do
    let m ← cont s c
    .ok (s, .bool (OMap.find? k m).isSome)
  | .size c => do
    let m ← cont s c
    .ok (s, .num m.length)
  | .list c => do
    let m ← cont s c
    let l ← listAll s.heap m
    .ok (s, .vals l)
  | .destroy c => do
    let m ← cont s c
    let heap ← delAll s.heap m
    .ok ({ heap := heap, maps := s.maps.set c none }, .none)

/-- A program (containers/associative_container.hpp:185-280): the state at its end, and what the commands returned. -/
def run (d : α) (s : St κ α) : List (Cmd κ α) → Res (St κ α × List (Out κ α))
  | [] => .ok (s, [])
  | c :: cs => do
    let r ← step d s c
    let r' ← run d r.1 cs
    .ok (r'.1, r.2 :: r'.2)

/-- Before the program (containers/associative_container.hpp:183). -/
def init : St κ α := ⟨[], []⟩

end Assoc

/-! ### wrappers/cachedf.hpp -/

namespace Cached

variable {α : Type}

/-- The member `make_obj` (wrappers/cachedf.hpp:29): `null` returns the null pointer (36-37), `ptr f` is the function `f` (39-40), `val f` calls through a
reference to a parameter of the constructor, which does not exist any more (42-43). -/
inductive Mk where
  | null
  | ptr (f : Nat)
  | val (f : Nat)
deriving DecidableEq

/-- The objects made by `new`, the wrappers (wrappers/cachedf.hpp:27-29, `none` after destruction), and the calls of functions so far. -/
structure St (α : Type) where
  heap : List (Option α)
  objs : List (Option (Option Nat × Mk))
  calls : List Nat

/-- What a program may do: the constructors (wrappers/cachedf.hpp:36-43), the implicit copy constructor, `operator()` (50-54), the destructor (32-34). -/
inductive Cmd where
  | make (m : Mk)
  | copy (o : Nat)
  | call (o : Nat)
  | destroy (o : Nat)

/-- A wrapper that exists (wrappers/cachedf.hpp:27-29). -/
def obj (s : St α) (o : Nat) : Res (Option Nat × Mk) :=
  match s.objs[o]? with
  | some (some r) => .ok r
  | _ => .ub

/-- One command; `F f n` is what the function `f` returns when `n` calls of functions were made before (wrappers/cachedf.hpp:32-54). -/
def step (F : Nat → Nat → α) (s : St α) (c : Cmd) : Res (St α × Option α) :=
  match c with
  | .make m => .ok ({ s with objs := s.objs ++ [some (none, m)] }, none)
  | .copy o => do
    let r ← obj s o
    .ok ({ s with objs := s.objs ++ [some r] }, none)
  | .call o => do
    let r ← obj s o
    match r.1 with
    | some p =>
      match s.heap[p]? with
      | some (some x) => .ok (s, some x)
      | _ => .ub
    | none =>
      match r.2 with
      | .null => .throw
      | .val _ => .ub
      | .ptr f =>
        .ok ({ heap := s.heap ++ [some (F f s.calls.length)], objs := s.objs.set o (some (some s.heap.length, r.2)), calls := s.calls ++ [f] },
          some (F f s.calls.length))
  | .destroy o => do
    let r ← obj s o
    match r.1 with
    | none => .ok ({ s with objs := s.objs.set o none }, none)
    | some p =>
      match s.heap[p]? with
      | some (some _) => .ok ({ s with heap := s.heap.set p none, objs := s.objs.set o none }, none)
      | _ => .ub

/-- A program (wrappers/cachedf.hpp:32-54): the state at its end, and what the calls returned. -/
def run (F : Nat → Nat → α) (s : St α) : List Cmd → Res (St α × List α)
  | [] => .ok (s, [])
  | c :: cs => do
    let r ← step F s c
    let r' ← run F r.1 cs
    .ok (r'.1, r.2.toList ++ r'.2)

/-- Before the program (wrappers/cachedf.hpp:27). -/
def init : St α := ⟨[], [], []⟩

/-- wrappers/cachedf.hpp:63-66: the other wrapper, which holds the object itself. -/
structure ByValue (α : Type) where
  done : Bool
  obj : α
  f : Nat

/-- wrappers/cachedf.hpp:86-92, with the number of calls of functions before and after. -/
def ByValue.call (F : Nat → Nat → α) (w : ByValue α) (calls : Nat) : ByValue α × Nat × α :=
  if w.done = false then
    let x := F w.f calls
    ({ w with obj := x, done := true }, calls + 1, x)
  else (w, calls, w.obj)

end Cached

/-! ### Packs of objects -/

namespace Pack

variable {α β : Type}

/-- `operator[]` of containers/object_pack.hpp:48-56 (`i<obj.size()` compares unsigned numbers). -/
def at' (l : List α) (i : Int) : Res α :=
  if i < 0 then .throw else if i.toNat < l.length then Res.get l i.toNat else .throw

/-- containers/object_pack.hpp:62-67; the calls of `fn`, in their order. -/
def zip (l l' : List α) : Res (List (α × α)) := do
  Res.assrt (l.length == l'.length)
  Res.forM (List.range l.length) [] fun (acc : List (α × α)) (i : Nat) => do
    let a ← at' l (i : Int)
    let b ← at' l' (i : Int)
    .ok (acc ++ [(a, b)])

/-- containers/object_pack.hpp:69-75. -/
def mapcar (fn : α → β) (l : List α) : List β := l.map fn

/-- `*p`, `p` a `shared_ptr` (containers/shared_object_pack.hpp:58); objects stay in memory as long as packs refer to them. -/
def deref (heap : List α) (p : Option Nat) : Res α :=
  match p with
  | none => .ub
  | some p =>
    match heap[p]? with
    | some x => .ok x
    | none => .ub

/-- The const `operator[]` of containers/shared_object_pack.hpp:55-59: `size()` is an `int`, so that a negative index is not refused. -/
def atConst (l : List (Option Nat)) (i : Int) : Res Nat :=
  if i < l.length then
    if i < 0 then .ub
    else
      match l[i.toNat]? with
      | some (some p) => .ok p
      | some none => .throw
      | none => .ub
  else .throw

/-- The other `operator[]` (containers/shared_object_pack.hpp:50-53, 61-65; containers/object_pack_s.hpp:46-56). -/
def atVar (l : List (Option Nat)) (i : Int) : Res Nat :=
  if 0 ≤ i ∧ i < l.length then
    match l[i.toNat]? with
    | some (some p) => .ok p
    | some none => .throw
    | none => .ub
  else .throw

/-- The loop of containers/shared_object_pack.hpp:82-83 (= containers/object_pack_s.hpp:69-70); `fn` assigns to its first argument. -/
def zipLoop (fn : α → α → α) (heap : List α) (l l' : List (Option Nat)) : List Nat → Res (List α)
  | [] => .ok heap
  | i :: is => do
    let p ← atVar l i
    let q ← atConst l' i
    let x ← deref heap (some p)
    let y ← deref heap (some q)
    zipLoop fn (heap.set p (fn x y)) l l' is

/-- containers/shared_object_pack.hpp:79-84 (= containers/object_pack_s.hpp:66-71). -/
def zipShared (fn : α → α → α) (heap : List α) (l l' : List (Option Nat)) : Res (List α) := do
  Res.assrt (l.length == l'.length)
  zipLoop fn heap l l' (List.range l.length)

/-- The loop of containers/shared_object_pack.hpp:89-90 (= containers/object_pack_s.hpp:76-77). -/
def mapLoop (fn : α → α) (heap : List α) (acc : List (Option Nat)) : List (Option Nat) → Res (List α × List (Option Nat))
  | [] => .ok (heap, acc)
  | p :: ps => do
    let x ← deref heap p
    mapLoop fn (heap ++ [fn x]) (acc ++ [some heap.length]) ps

/-- containers/shared_object_pack.hpp:86-92 (= containers/object_pack_s.hpp:73-79). -/
def mapShared (fn : α → α) (heap : List α) (l : List (Option Nat)) : Res (List α × List (Option Nat)) := mapLoop fn heap [] l

/-- containers/shared_object_pack.hpp:67-69. -/
def pushObj (heap : List α) (l : List (Option Nat)) (x : α) : List α × List (Option Nat) := (heap ++ [x], l ++ [some heap.length])

/-- containers/shared_object_pack.hpp:71-73. -/
def pushPtr (l : List (Option Nat)) (p : Option Nat) : List (Option Nat) := l ++ [p]

end Pack

/-! ### Maps with several keys -/

namespace Keys

variable {A B C D E υ : Type}

/-- containers/double_map.hpp:34-39. -/
def lt2 [LinearOrder A] [LinearOrder B] (x y : A × B) : Bool :=
  if x.1 < y.1 then true else if x.1 > y.1 then false else if x.2 < y.2 then true else false

/-- containers/double_map.hpp:41-43. -/
def eq2 [DecidableEq A] [DecidableEq B] (x y : A × B) : Bool := decide (x.1 = y.1) && decide (x.2 = y.2)

/-- containers/triple_map.hpp:35-37. -/
def eq3 [DecidableEq A] [DecidableEq B] [DecidableEq C] (x y : A × B × C) : Bool :=
  decide (x.1 = y.1) && decide (x.2.1 = y.2.1) && decide (x.2.2 = y.2.2)

/-- containers/quadruple_map.hpp:36-38. -/
def eq4 [DecidableEq A] [DecidableEq B] [DecidableEq C] [DecidableEq D] (x y : A × B × C × D) : Bool :=
  decide (x.1 = y.1) && decide (x.2.1 = y.2.1) && decide (x.2.2.1 = y.2.2.1) && decide (x.2.2.2 = y.2.2.2)

/-- containers/quintuple_map.hpp:37-39. -/
def eq5 [DecidableEq A] [DecidableEq B] [DecidableEq C] [DecidableEq D] [DecidableEq E] (x y : A × B × C × D × E) : Bool :=
  decide (x.1 = y.1) && decide (x.2.1 = y.2.1) && decide (x.2.2.1 = y.2.2.1) && decide (x.2.2.2.1 = y.2.2.2.1) && decide (x.2.2.2.2 = y.2.2.2.2)

/-- One step of the hash functions on 64 bits (containers/double_map.hpp:57). -/
def mix (h g : BitVec 64) : BitVec 64 := (h <<< 1) ^^^ g

/-- containers/double_map.hpp:55-59. -/
def hash2 (a : A → BitVec 64) (b : B → BitVec 64) (x : A × B) : BitVec 64 := mix (a x.1) (b x.2)

/-- containers/triple_map.hpp:48-53. -/
def hash3 (a : A → BitVec 64) (b : B → BitVec 64) (c : C → BitVec 64) (x : A × B × C) : BitVec 64 := mix (mix (a x.1) (b x.2.1)) (c x.2.2)

/-- containers/quadruple_map.hpp:49-55. -/
def hash4 (a : A → BitVec 64) (b : B → BitVec 64) (c : C → BitVec 64) (d : D → BitVec 64) (x : A × B × C × D) : BitVec 64 :=
  mix (mix (mix (a x.1) (b x.2.1)) (c x.2.2.1)) (d x.2.2.2)

/-- containers/quintuple_map.hpp:50-57. -/
def hash5 (a : A → BitVec 64) (b : B → BitVec 64) (c : C → BitVec 64) (d : D → BitVec 64) (e : E → BitVec 64) (x : A × B × C × D × E) : BitVec 64 :=
  mix (mix (mix (mix (a x.1) (b x.2.1)) (c x.2.2.1)) (d x.2.2.2.1)) (e x.2.2.2.2)

/-- `find` of `std::unordered_map` with its hash function and its equality: entries with another hash are passed over (`BASE::operator[]` at
containers/double_map.hpp:75). -/
def find {κ : Type} (eq : κ → κ → Bool) (hash : κ → BitVec 64) (k : κ) : List (κ × υ) → Option υ
  | [] => none
  | (k', v) :: m => if hash k = hash k' ∧ eq k k' = true then some v else find eq hash k m

/-- The entry of `k` replaced, or a new one (`BASE::operator[]` at containers/double_map.hpp:75). -/
def put {κ : Type} (eq : κ → κ → Bool) (hash : κ → BitVec 64) (k : κ) (v : υ) : List (κ × υ) → List (κ × υ)
  | [] => [(k, v)]
  | (k', v') :: m => if hash k = hash k' ∧ eq k k' = true then (k', v) :: m else (k', v') :: put eq hash k v m

/-- `m(i1,i2)` read: an entry `OBJ()` is made if there is none (containers/double_map.hpp:74-76, containers/triple_map.hpp:68-70,
containers/quadruple_map.hpp:70-72, containers/quintuple_map.hpp:72-74). -/
def get {κ : Type} (d : υ) (eq : κ → κ → Bool) (hash : κ → BitVec 64) (k : κ) (m : List (κ × υ)) : υ × List (κ × υ) :=
  match find eq hash k m with
  | some v => (v, m)
  | none => (d, put eq hash k d m)

/-- A program that reads (`none`) and assigns (`some v`) entries: what it reads (containers/double_map.hpp:74-76). -/
def run {κ : Type} (d : υ) (eq : κ → κ → Bool) (hash : κ → BitVec 64) (m : List (κ × υ)) : List (κ × Option υ) → List υ
  | [] => []
  | (k, none) :: cs => (get d eq hash k m).1 :: run d eq hash (get d eq hash k m).2 cs
  | (k, some v) :: cs => run d eq hash (put eq hash k v m) cs

end Keys

end Cnine
