import Verif.Model.Basic
import Verif.Model.UMap
import Verif.Model.Observers

/-!
# Models of the object banks and caches, utility/once.hpp

The maker of a bank may keep state and may throw: `mk n k` is the outcome of its `n`-th call, `none` being an exception.  The
ghost field `calls` counts the calls.  A maker that calls the same bank again is not modelled.

A bank observes its keys.  By C58 a key that dies signals the observers that list it, exactly once; so the death of a key is: if
the observer lists the key, drop it from the list and run the deletion action.
-/

namespace Cnine

/-- What happens to a bank: a lookup, an explicit insertion, the death of a key. -/
inductive BEv (K ω ρ : Type _) where
  | get (k : K)
  | put (k : K) (v : ω)
  | kill (r : ρ)
  deriving Repr, DecidableEq

/-- `m[k]` of an `unordered_map` to sets, as a value (e.g. containers/ptr_arg_indexed_cache.hpp:81). -/
def lkp {κ σ : Type _} [DecidableEq κ] (m : UMap κ (List σ)) (k : κ) : List σ := (UMap.find? k m).getD []

/-- `m[k].insert(x)` (e.g. containers/ptr_arg_indexed_cache.hpp:81). -/
def lkpIns {κ σ : Type _} [DecidableEq κ] [DecidableEq σ] (m : UMap κ (List σ)) (k : κ) (x : σ) : UMap κ (List σ) :=
  UMap.set k (setIns x (lkp m k)) m

/-- `m[k].erase(x)` (e.g. containers/ptr_pair_indexed_object_bank.hpp:68). -/
def lkpDel {κ σ : Type _} [DecidableEq κ] [DecidableEq σ] (m : UMap κ (List σ)) (k : κ) (x : σ) : UMap κ (List σ) :=
  UMap.set k (setDel x (lkp m k)) m

/-- Erasing a list of keys (e.g. the loop of containers/plist_indexed_object_bank.hpp:82-83). -/
def eraseAll {K ω : Type _} [DecidableEq K] (ks : List K) (m : UMap K ω) : UMap K ω := ks.foldl (fun m k => UMap.erase k m) m

/-! ## Banks indexed by one pointer -/

/-- containers/ptr_indexed_object_bank.hpp:27-37 (= containers/ptr_indexed_cache.hpp:27-36). -/
structure PBank (ω : Type _) where
  map : UMap Nat ω
  targets : List Nat
  calls : Nat

namespace PBank

variable {ω : Type _}

/-- containers/ptr_indexed_object_bank.hpp:50-52. -/
def empty : PBank ω := ⟨[], [], 0⟩

/-- containers/ptr_indexed_object_bank.hpp:76-83 (= containers/ptr_indexed_cache.hpp:75-82); `none`: the maker threw. -/
def get (mk : Nat → Nat → Option ω) (b : PBank ω) (k : Nat) : Option ω × PBank ω :=
  match UMap.find? k b.map with
  | some x => (some x, b)
  | none =>
    let t := setIns k b.targets
    match mk b.calls k with
    | none => (none, ⟨b.map, t, b.calls + 1⟩)
    | some x => (some x, ⟨UMap.emplace k x b.map, t, b.calls + 1⟩)

/-- Death of key `p`: utility/observable.hpp:122-127 with containers/ptr_indexed_object_bank.hpp:52. -/
def kill (b : PBank ω) (p : Nat) : PBank ω :=
  if p ∈ b.targets then ⟨UMap.erase p b.map, setDel p b.targets, b.calls⟩ else b

/-- containers/ptr_indexed_object_bank.hpp:50-83: one event (there is no explicit insertion: no change). -/
def step (mk : Nat → Nat → Option ω) (b : PBank ω) : BEv Nat ω Nat → Res (Option ω × PBank ω)
  | .get k => .ok (b.get mk k)
  | .put _ _ => .ok (none, b)
  | .kill p => .ok (none, b.kill p)

end PBank

/-! ## Banks indexed by a pointer and an argument -/

/-- containers/ptr_arg_indexed_cache.hpp:28-42 (= containers/ptr_arg_indexed_object_bank.hpp:26-41). -/
structure ABank (α ω : Type _) where
  map : UMap (Nat × α) ω
  targets : List Nat
  lookup0 : UMap Nat (List α)
  calls : Nat

namespace ABank

variable {α ω : Type _} [DecidableEq α]

omit [DecidableEq α] in
/-- containers/ptr_arg_indexed_cache.hpp:55-57. -/
def empty : ABank α ω := ⟨[], [], [], 0⟩

/-- containers/ptr_arg_indexed_cache.hpp:76-84 (= containers/ptr_arg_indexed_object_bank.hpp:74-82). -/
def get (mk : Nat → Nat × α → Option ω) (b : ABank α ω) (k : Nat × α) : Option ω × ABank α ω :=
  match UMap.find? k b.map with
  | some x => (some x, b)
  | none =>
    let t := setIns k.1 b.targets
    let l := lkpIns b.lookup0 k.1 k.2
    match mk b.calls k with
    | none => (none, ⟨b.map, t, l, b.calls + 1⟩)
    | some x => (some x, ⟨UMap.emplace k x b.map, t, l, b.calls + 1⟩)

/-- containers/ptr_arg_indexed_cache.hpp:98-105: the stored object is kept if there is one. -/
def put (b : ABank α ω) (k : Nat × α) (v : ω) : ABank α ω :=
  ⟨UMap.emplace k v b.map, setIns k.1 b.targets, lkpIns b.lookup0 k.1 k.2, b.calls⟩

/-- Death of key `p`: utility/observable.hpp:122-127 with containers/ptr_arg_indexed_cache.hpp:66-70 (`clean`) or
containers/ptr_arg_indexed_object_bank.hpp:65-68 (not `clean`: `lookup0[x]`, made if absent, stays). -/
def kill (clean : Bool) (b : ABank α ω) (p : Nat) : ABank α ω :=
  if p ∈ b.targets then
    let l := UMap.set p (lkp b.lookup0 p) b.lookup0
    ⟨eraseAll ((lkp b.lookup0 p).map (p, ·)) b.map, setDel p b.targets, if clean then UMap.erase p l else l, b.calls⟩
  else b

/-- containers/ptr_arg_indexed_cache.hpp:55-105: one event. -/
def step (clean : Bool) (mk : Nat → Nat × α → Option ω) (b : ABank α ω) : BEv (Nat × α) ω Nat → Res (Option ω × ABank α ω)
  | .get k => .ok (b.get mk k)
  | .put k v => .ok (none, b.put k v)
  | .kill p => .ok (none, b.kill clean p)

end ABank

/-! ## Banks indexed by two pointers -/

/-- containers/ptr_pair_indexed_object_bank.hpp:26-41. -/
structure PPBank (ω : Type _) where
  map : UMap (Nat × Nat) ω
  targets0 : List Nat
  targets1 : List Nat
  lookup0 : UMap Nat (List Nat)
  lookup1 : UMap Nat (List Nat)
  calls : Nat

namespace PPBank

variable {ω : Type _}

/-- containers/ptr_pair_indexed_object_bank.hpp:55-58. -/
def empty : PPBank ω := ⟨[], [], [], [], [], 0⟩

/-- containers/ptr_pair_indexed_object_bank.hpp:111-114 (= 142-145). -/
def note (b : PPBank ω) (k : Nat × Nat) : PPBank ω :=
  { b with targets0 := setIns k.1 b.targets0, targets1 := setIns k.2 b.targets1, lookup0 := lkpIns b.lookup0 k.1 k.2,
           lookup1 := lkpIns b.lookup1 k.2 k.1 }

/-- containers/ptr_pair_indexed_object_bank.hpp:107-117. -/
def get (mk : Nat → Nat × Nat → Option ω) (b : PPBank ω) (k : Nat × Nat) : Option ω × PPBank ω :=
  match UMap.find? k b.map with
  | some x => (some x, b)
  | none =>
    let b' := b.note k
    match mk b.calls k with
    | none => (none, { b' with calls := b.calls + 1 })
    | some x => (some x, { b' with map := UMap.emplace k x b.map, calls := b.calls + 1 })

/-- containers/ptr_pair_indexed_object_bank.hpp:140-147. -/
def put (b : PPBank ω) (k : Nat × Nat) (v : ω) : PPBank ω := { b.note k with map := UMap.emplace k v b.map }

/-- containers/ptr_pair_indexed_object_bank.hpp:63-71. -/
def erase0 (b : PPBank ω) (x : Nat) : PPBank ω :=
  match UMap.find? x b.lookup0 with
  | none => b
  | some ys =>
    { b with map := eraseAll (ys.map (x, ·)) b.map, lookup1 := ys.foldl (fun l y => lkpDel l y x) b.lookup1,
             lookup0 := UMap.erase x b.lookup0 }

/-- containers/ptr_pair_indexed_object_bank.hpp:73-81. -/
def erase1 (b : PPBank ω) (y : Nat) : PPBank ω :=
  match UMap.find? y b.lookup1 with
  | none => b
  | some xs =>
    { b with map := eraseAll (xs.map (·, y)) b.map, lookup0 := xs.foldl (fun l x => lkpDel l x y) b.lookup0,
             lookup1 := UMap.erase y b.lookup1 }

/-- Death of an object used as first (`false`) or second (`true`) key: utility/observable.hpp:122-127 with
containers/ptr_pair_indexed_object_bank.hpp:57-58.  An object used as both dies twice, once in each part. -/
def kill (b : PPBank ω) : Bool × Nat → PPBank ω
  | (false, p) => if p ∈ b.targets0 then { b.erase0 p with targets0 := setDel p b.targets0 } else b
  | (true, p) => if p ∈ b.targets1 then { b.erase1 p with targets1 := setDel p b.targets1 } else b

/-- containers/ptr_pair_indexed_object_bank.hpp:55-147: one event. -/
def step (mk : Nat → Nat × Nat → Option ω) (b : PPBank ω) : BEv (Nat × Nat) ω (Bool × Nat) → Res (Option ω × PPBank ω)
  | .get k => .ok (b.get mk k)
  | .put k v => .ok (none, b.put k v)
  | .kill r => .ok (none, b.kill r)

end PPBank

/-! ## Caches indexed by three pointers and an argument -/

/-- The key of containers/ptr_triple_indexed_cache.hpp:165 (with `α := Unit`: 29). -/
abbrev TKey (α : Type _) := Nat × Nat × Nat × α

/-- `std::get<i>` of the pointers of a key (containers/ptr_triple_indexed_cache.hpp:208). -/
def TKey.ptr {α : Type _} (k : TKey α) : Fin 3 → Nat
  | 0 => k.1
  | 1 => k.2.1
  | 2 => k.2.2.1

/-- containers/ptr_triple_indexed_cache.hpp:162-179 (with `α := Unit`: 26-43); the three observers and lookups by number. -/
structure TBank (α ω : Type _) where
  map : UMap (TKey α) ω
  targets : Fin 3 → List Nat
  lookup : Fin 3 → UMap Nat (List (TKey α))
  calls : Nat

namespace TBank

variable {α ω : Type _} [DecidableEq α]

omit [DecidableEq α] in
/-- containers/ptr_triple_indexed_cache.hpp:194-198 (58-62). -/
def empty : TBank α ω := ⟨[], fun _ => [], fun _ => [], 0⟩

/-- containers/ptr_triple_indexed_cache.hpp:267-272 (= 288-293, 131-136, 143-148). -/
def note (b : TBank α ω) (k : TKey α) : TBank α ω :=
  { b with targets := fun i => setIns (k.ptr i) (b.targets i), lookup := fun i => lkpIns (b.lookup i) (k.ptr i) k }

/-- containers/ptr_triple_indexed_cache.hpp:262-275 (126-139). -/
def get (mk : Nat → TKey α → Option ω) (b : TBank α ω) (k : TKey α) : Option ω × TBank α ω :=
  match UMap.find? k b.map with
  | some x => (some x, b)
  | none =>
    let b' := b.note k
    match mk b.calls k with
    | none => (none, { b' with calls := b.calls + 1 })
    | some x => (some x, { b' with map := UMap.emplace k x b.map, calls := b.calls + 1 })

/-- containers/ptr_triple_indexed_cache.hpp:286-295 (141-150). -/
def put (b : TBank α ω) (k : TKey α) (v : ω) : TBank α ω := { b.note k with map := UMap.emplace k v b.map }

/-- containers/ptr_triple_indexed_cache.hpp:203-212, 214-223, 225-234 (67-76, 78-87, 89-98). -/
def eraseI (b : TBank α ω) (i : Fin 3) (x : Nat) : TBank α ω :=
  match UMap.find? x (b.lookup i) with
  | none => b
  | some ps =>
    { b with map := eraseAll ps b.map,
             lookup := fun j => if j = i then UMap.erase x (b.lookup i) else ps.foldl (fun l p => lkpDel l (p.ptr j) p) (b.lookup j) }

/-- Death of an object used as key number `i`: utility/observable.hpp:122-127 with
containers/ptr_triple_indexed_cache.hpp:196-198 (60-62). -/
def kill (b : TBank α ω) (r : Fin 3 × Nat) : TBank α ω :=
  if r.2 ∈ b.targets r.1 then
    { b.eraseI r.1 r.2 with targets := fun j => if j = r.1 then setDel r.2 (b.targets j) else b.targets j }
  else b

/-- containers/ptr_triple_indexed_cache.hpp:194-295 (58-150): one event. -/
def step (mk : Nat → TKey α → Option ω) (b : TBank α ω) : BEv (TKey α) ω (Fin 3 × Nat) → Res (Option ω × TBank α ω)
  | .get k => .ok (b.get mk k)
  | .put k v => .ok (none, b.put k v)
  | .kill r => .ok (none, b.kill r)

end TBank

/-! ## Banks indexed by a list of pointers -/

/-- containers/plist_indexed_object_bank.hpp:45-58. -/
structure LBank (ω : Type _) where
  map : UMap (List Nat) ω
  memberships : UMap Nat (List (List Nat))
  targets : List Nat
  calls : Nat

namespace LBank

variable {ω : Type _}

/-- containers/plist_indexed_object_bank.hpp:71-73. -/
def empty : LBank ω := ⟨[], [], [], 0⟩

/-- The body of the loop containers/plist_indexed_object_bank.hpp:105-108. -/
def note1 (k : List Nat) (b : LBank ω) (p : Nat) : LBank ω :=
  { b with targets := setIns p b.targets, memberships := UMap.set p (lkp b.memberships p ++ [k]) b.memberships }

/-- containers/plist_indexed_object_bank.hpp:99-112. -/
def get (mk : Nat → List Nat → Option ω) (b : LBank ω) (k : List Nat) : Option ω × LBank ω :=
  match UMap.find? k b.map with
  | some x => (some x, b)
  | none =>
    let b' := k.foldl (note1 k) b
    match mk b.calls k with
    | none => (none, { b' with calls := b.calls + 1 })
    | some x => (some x, { b' with map := UMap.emplace k x b.map, calls := b.calls + 1 })

/-- containers/plist_indexed_object_bank.hpp:79-85. -/
def eraseAllInvolving (b : LBank ω) (p : Nat) : Res (LBank ω) :=
  match UMap.find? p b.memberships with
  | none => .throw
  | some qs => .ok { b with map := eraseAll qs b.map, memberships := UMap.erase p b.memberships }

/-- Death of key `p`: utility/observable.hpp:122-127 with containers/plist_indexed_object_bank.hpp:73. -/
def kill (b : LBank ω) (p : Nat) : Res (LBank ω) :=
  if p ∈ b.targets then eraseAllInvolving { b with targets := setDel p b.targets } p else .ok b

/-- containers/plist_indexed_object_bank.hpp:71-112: one event (there is no explicit insertion: no change). -/
def step (mk : Nat → List Nat → Option ω) (b : LBank ω) : BEv (List Nat) ω Nat → Res (Option ω × LBank ω)
  | .get k => .ok (b.get mk k)
  | .put _ _ => .ok (none, b)
  | .kill p => do
    let b' ← b.kill p
    .ok (none, b')

end LBank

/-! ## object_bank, once, oncep -/

/-- containers/object_bank.hpp:23-29: the stored pointers; address 0 is the null pointer. -/
structure OBank (K : Type _) where
  map : UMap K Nat
  calls : Nat

namespace OBank

variable {K : Type _} [DecidableEq K]

/-- containers/object_bank.hpp:45-51: the address of the object returned; a null pointer is dereferenced. -/
def get (mk : Nat → K → Nat) (b : OBank K) (k : K) : Res (Nat × OBank K) :=
  match UMap.find? k b.map with
  | some p => if p = 0 then .ub else .ok (p, b)
  | none =>
    let p := mk b.calls k
    if p = 0 then .ub else .ok (p, ⟨UMap.set k p b.map, b.calls + 1⟩)

end OBank

/-- utility/once.hpp:28-31; `calls` counts the calls of the maker. -/
structure Once (ω : Type _) where
  done : Bool
  obj : ω
  calls : Nat
  deriving Repr, DecidableEq

/-- utility/once.hpp:51-57 (= 46-49). -/
def Once.get {ω : Type _} (mk : Nat → ω) (b : Once ω) : ω × Once ω :=
  let b' := if b.done then b else ⟨true, mk b.calls, b.calls + 1⟩
  (b'.obj, b')

/-- utility/once.hpp:84-88: `(obj, calls)`; a maker that returns null makes the call throw, and is called again next time. -/
def oncepGet (mk : Nat → Nat) (b : Nat × Nat) : Res Nat × (Nat × Nat) :=
  let b' := if b.1 = 0 then (mk b.2, b.2 + 1) else b
  (if b'.1 = 0 then .throw else .ok b'.1, b')

end Cnine
