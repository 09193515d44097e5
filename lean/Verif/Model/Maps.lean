import Verif.Model.Basic
import Verif.Model.OMap
import Verif.Model.UMap

/-!
# Models of bidirectional_map, indexed_map, map_of_maps, map_of_lists and multivec
-/

namespace Cnine

/-! ## containers/bidirectional_map.hpp -/

/-- containers/bidirectional_map.hpp:27-28. -/
structure BMap (κ υ : Type _) where
  fmap : UMap κ υ
  bmap : UMap υ κ
  deriving Repr, DecidableEq

namespace BMap

variable {κ υ : Type _} [DecidableEq κ] [DecidableEq υ]

/-- The empty map (compiler-generated constructor of containers/bidirectional_map.hpp:24). -/
def empty : BMap κ υ := ⟨[], []⟩

omit [DecidableEq υ] in
/-- containers/bidirectional_map.hpp:36-40. -/
def forward (m : BMap κ υ) (k : κ) : Option υ := UMap.find? k m.fmap

omit [DecidableEq κ] in
/-- containers/bidirectional_map.hpp:42-46. -/
def backward (m : BMap κ υ) (v : υ) : Option κ := UMap.find? v m.bmap

/-- containers/bidirectional_map.hpp:76-82. -/
def eraseBackward (m : BMap κ υ) (v : υ) : BMap κ υ :=
  match UMap.find? v m.bmap with
  | none => m
  | some k => ⟨UMap.erase k m.fmap, UMap.erase v m.bmap⟩

/-- containers/bidirectional_map.hpp:68-74. -/
def erase (m : BMap κ υ) (k : κ) : BMap κ υ :=
  match UMap.find? k m.fmap with
  | none => m
  | some v => ⟨UMap.erase k m.fmap, UMap.erase v m.bmap⟩

/-- containers/bidirectional_map.hpp:52-62.  Line 57 erases through the iterator found at line 53; if line 56 erased the same
entry (line 79), the iterator is invalid. -/
def insert (m : BMap κ υ) (k : κ) (v : υ) : Res (BMap κ υ) :=
  match UMap.find? k m.fmap with
  | none => .ok ⟨UMap.emplace k v m.fmap, UMap.emplace v k m.bmap⟩
  | some w =>
    if w = v then .ok m
    else if UMap.find? w m.bmap = some k then .ub
    else
      let m1 := m.eraseBackward w
      .ok ⟨UMap.emplace k v (UMap.erase k m1.fmap), UMap.emplace v k m1.bmap⟩

/-- containers/bidirectional_map.hpp:84-87. -/
def clear (_ : BMap κ υ) : BMap κ υ := ⟨[], []⟩

omit [DecidableEq κ] [DecidableEq υ] in
/-- containers/bidirectional_map.hpp:32-34. -/
def size (m : BMap κ υ) : Nat := m.fmap.length

/-- A call by the client. -/
inductive Op (κ υ : Type _) where
  | insert (k : κ) (v : υ)
  | erase (k : κ)
  | eraseBackward (v : υ)
  | clear
  deriving Repr, DecidableEq

/-- containers/bidirectional_map.hpp:52-87: one call. -/
def step (m : BMap κ υ) : Op κ υ → Res (BMap κ υ)
  | .insert k v => m.insert k v
  | .erase k => .ok (m.erase k)
  | .eraseBackward v => .ok (m.eraseBackward v)
  | .clear => .ok m.clear

end BMap

/-! ## containers/indexed_map.hpp -/

/-- The heap objects the pointers refer to; `none`: not allocated.  Address 0 is the null pointer. -/
structure OHeap (ω : Type _) where
  cell : Nat → Option ω
  next : Nat

/-- containers/indexed_map.hpp:33-34 (= 109-110). -/
structure IMap (κ : Type _) where
  v : List Nat
  map : OMap κ Nat
  deriving Repr, DecidableEq

namespace IMap

variable {κ ω : Type} [LinearOrder κ]

/-- The empty map (containers/indexed_map.hpp:117). -/
def empty : IMap κ := ⟨[], []⟩

omit [LinearOrder κ] in
/-- containers/indexed_map.hpp:55-57 (= 157-159). -/
def size (m : IMap κ) : Nat := m.v.length

omit [LinearOrder κ] in
/-- containers/indexed_map.hpp:59-61 (= 161-163). -/
def atIdx (m : IMap κ) (i : Nat) : Res Nat :=
  match m.v[i]? with
  | some p => .ok p
  | none => .ub

/-- containers/indexed_map.hpp:63-65 (= 165-167): `_map[key]` inserts a null pointer if the key is absent. -/
def atKey (m : IMap κ) (k : κ) : Nat × IMap κ :=
  match OMap.find? k m.map with
  | some p => (p, m)
  | none => (0, ⟨m.v, OMap.set k 0 m.map⟩)

/-- containers/indexed_map.hpp:67-70 (= 169-172). -/
def insert (m : IMap κ) (k : κ) (p : Nat) : IMap κ := ⟨m.v ++ [p], OMap.set k p m.map⟩

/-- containers/indexed_map.hpp:72-74 (= 179-181). -/
def exists? (m : IMap κ) (k : κ) : Bool := (OMap.find? k m.map).isSome

/-- containers/indexed_map.hpp:174-177: `push_back`; `key` is the method of the object. -/
def pushBack (key : ω → κ) (h : OHeap ω) (m : IMap κ) (p : Nat) : Res (IMap κ) :=
  match h.cell p with
  | none => .ub
  | some o => .ok (m.insert (key o) p)

/-- `delete p` (containers/indexed_map.hpp:91): nothing for the null pointer. -/
def delete (h : OHeap ω) (p : Nat) : Res (OHeap ω) :=
  if p = 0 then .ok h
  else match h.cell p with
    | none => .ub
    | some _ => .ok ⟨fun q => if q = p then none else h.cell q, h.next⟩

/-- `new OBJ(o)` (containers/indexed_map.hpp:125). -/
def alloc (h : OHeap ω) (o : ω) : Nat × OHeap ω := (h.next, ⟨fun q => if q = h.next then some o else h.cell q, h.next + 1⟩)

/-- The loop `for(auto p:v) delete p` (containers/indexed_map.hpp:37-38, 90-91, 113-114, 197-198). -/
def deleteAll (h : OHeap ω) : List Nat → Res (OHeap ω)
  | [] => .ok h
  | p :: ps => do
    let h' ← delete h p
    deleteAll h' ps

omit [LinearOrder κ] in
/-- containers/indexed_map.hpp:89-94 (= 196-201). -/
def wipe (h : OHeap ω) (m : IMap κ) : Res (OHeap ω × IMap κ) := do
  let h' ← deleteAll h m.v
  .ok (h', ⟨[], []⟩)

omit [LinearOrder κ] in
/-- containers/indexed_map.hpp:84-87 (= 191-194). -/
def clear (_ : IMap κ) : IMap κ := ⟨[], []⟩

/-- The loop of containers/indexed_map.hpp:124-126 and 138-140: `push_back(new OBJ(*p))`. -/
def copyLoop (key : ω → κ) : List Nat → OHeap ω → IMap κ → Res (OHeap ω × IMap κ)
  | [], h, m => .ok (h, m)
  | p :: ps, h, m =>
    match h.cell p with
    | none => .ub
    | some o => do
      let a := alloc h o
      let m' ← pushBack key a.2 m a.1
      copyLoop key ps a.2 m'

/-- containers/indexed_map.hpp:123-127: the copy constructor. -/
def copy (key : ω → κ) (h : OHeap ω) (x : IMap κ) : Res (OHeap ω × IMap κ) := copyLoop key x.v h empty

/-- containers/indexed_map.hpp:136-142: assignment to another object. -/
def assign (key : ω → κ) (h : OHeap ω) (m x : IMap κ) : Res (OHeap ω × IMap κ) := do
  let r ← wipe h m
  copyLoop key x.v r.1 r.2

/-- containers/indexed_map.hpp:136-142: assignment of an object to itself, `x` being `*this` also after line 137. -/
def assignSelf (key : ω → κ) (h : OHeap ω) (m : IMap κ) : Res (OHeap ω × IMap κ) := do
  let r ← wipe h m
  copyLoop key r.2.v r.1 r.2

end IMap

/-! ## containers/map_of_maps.hpp -/

/-- containers/map_of_maps.hpp:29. -/
abbrev MoM (κ ι α : Type _) := UMap κ (UMap ι α)

namespace MoM

variable {κ ι α : Type _} [DecidableEq κ] [DecidableEq ι]

/-- containers/map_of_maps.hpp:94-96. -/
def set (m : MoM κ ι α) (i : κ) (j : ι) (x : α) : MoM κ ι α :=
  UMap.set i (UMap.set j x ((UMap.find? i m).getD [])) m

omit [DecidableEq κ] [DecidableEq ι] in
/-- containers/map_of_maps.hpp:60-65 (= 67-72). -/
def size (m : MoM κ ι α) : Nat := m.foldl (fun t p => t + p.2.length) 0

/-- containers/map_of_maps.hpp:74-80. -/
def isFilled (m : MoM κ ι α) (i : κ) (j : ι) : Bool :=
  match UMap.find? i m with
  | none => false
  | some r => (UMap.find? j r).isSome

/-- containers/map_of_maps.hpp:82-88; `dflt` is `TYPE()`. -/
def get (dflt : α) (m : MoM κ ι α) (i : κ) (j : ι) : α :=
  match UMap.find? i m with
  | none => dflt
  | some r => (UMap.find? j r).getD dflt

/-- containers/map_of_maps.hpp:111-122. -/
def subsetOf [DecidableEq α] (m x : MoM κ ι α) : Bool :=
  m.all fun p =>
    match UMap.find? p.1 x with
    | none => false
    | some r => p.2.all fun q =>
      match UMap.find? q.1 r with
      | none => false
      | some y => y = q.2

/-- containers/map_of_maps.hpp:98-109. -/
def beq [DecidableEq α] (m x : MoM κ ι α) : Bool := m.subsetOf x && x.subsetOf m

omit [DecidableEq κ] [DecidableEq ι] in
/-- containers/map_of_maps.hpp:128-132: the arguments of the calls of `lambda`. -/
def forEach (m : MoM κ ι α) : List (κ × ι × α) := m.flatMap fun p => p.2.map fun q => (p.1, q.1, q.2)

omit [DecidableEq κ] [DecidableEq ι] in
/-- containers/map_of_maps.hpp:156-165: the hash, for given hashes of keys and values (64 bits). -/
def hash (hk : κ → UInt64) (hi : ι → UInt64) (ha : α → UInt64) (m : MoM κ ι α) : UInt64 :=
  m.forEach.foldl (fun t e => ((((((t ^^^ hk e.1) <<< 1) ^^^ hi e.2.1) <<< 1) ^^^ ha e.2.2) <<< 1)) 1

end MoM

/-! ## containers/map_of_lists.hpp -/

/-- containers/map_of_lists.hpp:26. -/
abbrev MoL (κ α : Type _) := UMap κ (List α)

namespace MoL

variable {κ α : Type _} [DecidableEq κ]

/-- containers/map_of_lists.hpp:78-82. -/
def pushBack (m : MoL κ α) (k : κ) (x : α) : MoL κ α :=
  match UMap.find? k m with
  | none => UMap.set k [x] m
  | some l => UMap.set k (l ++ [x]) m

omit [DecidableEq κ] in
/-- containers/map_of_lists.hpp:57-62 (= 64-69). -/
def total (m : MoL κ α) : Nat := m.foldl (fun t p => t + p.2.length) 0

omit [DecidableEq κ] in
/-- containers/map_of_lists.hpp:71-76 with `bump` (include/Cnine_base_helpers.hpp:26). -/
def maxSize (m : MoL κ α) : Nat := m.foldl (fun t p => if p.2.length > t then p.2.length else t) 0

omit [DecidableEq κ] in
/-- containers/map_of_lists.hpp:88-92: the arguments of the calls of `lambda`. -/
def forEach (m : MoL κ α) : List (κ × α) := m.flatMap fun p => p.2.map fun q => (p.1, q)

/-- containers/map_of_lists.hpp:94-100: the arguments of the calls of `lambda`. -/
def forEachInList (m : MoL κ α) (k : κ) : List α := (UMap.find? k m).getD []

/-- containers/map_of_lists.hpp:35 with 38: `m[k]`, which the class exposes: an absent key gets an empty list. -/
def touch (m : MoL κ α) (k : κ) : MoL κ α :=
  match UMap.find? k m with
  | none => UMap.set k [] m
  | some _ => m

omit [DecidableEq κ] in
/-- containers/map_of_lists.hpp:110-121: the items `str` writes, list by list.  `p.second.size()-1` is unsigned: for an empty list
the loop at 114 runs beyond the list. -/
def strItems (m : MoL κ α) : Res (List (κ × List α)) :=
  m.foldr (fun p acc => if p.2.length = 0 then .ub else do let r ← acc; .ok ((p.1, p.2.take (p.2.length - 1) ++ p.2.drop (p.2.length - 1)) :: r))
    (.ok [])

end MoL

/-! ## containers/multivec.hpp -/

/-- containers/multivec.hpp:28: the vectors `vecs[0]`, `vecs[1]`, … -/
abbrev MVec (α : Type _) := List (List α)

namespace MVec

variable {α : Type _}

/-- containers/multivec.hpp:48-51. -/
def ofK (k : Nat) : MVec α := List.replicate k []

/-- containers/multivec.hpp:73-76. -/
def size : MVec α → Nat
  | [] => 0
  | v :: _ => v.length

/-- containers/multivec.hpp:78-83. -/
def checkSize (m : MVec α) (k : Nat) : Res (MVec α) := do
  let m' := if m.length = 0 then m ++ List.replicate k [] else m
  Res.assrt (m'.length = k)
  .ok m'

/-- The loop of containers/multivec.hpp:96-98 from vector `i` on. -/
def pushLoop : MVec α → List α → Res (MVec α)
  | m, [] => .ok m
  | [], _ :: _ => .ub
  | v :: m, x :: xs => do
    let r ← pushLoop m xs
    .ok ((v ++ [x]) :: r)

/-- containers/multivec.hpp:93-99 (= 85-91). -/
def pushBack (m : MVec α) (l : List α) : Res (MVec α) := do
  let m' ← m.checkSize l.length
  m'.pushLoop l

/-- containers/multivec.hpp:101-106. -/
def get (m : MVec α) (i : Nat) : Res (List α) :=
  m.foldr (fun v acc => do let x ← (match v[i]? with | some x => .ok x | none => .ub); let r ← acc; .ok (x :: r)) (.ok [])

/-- containers/multivec.hpp:53-63 with `fcode==3`. -/
def ofSeq (k n : Nat) : Res (MVec Nat) :=
  (List.range n).foldl (fun acc i => do let m ← acc; m.pushBack ((List.range k).map fun j => i * k + j)) (.ok (ofK k))

end MVec

end Cnine
