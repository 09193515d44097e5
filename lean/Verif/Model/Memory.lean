import Verif.Model.Basic

/-!
# Model of include/SimpleMemoryManager.hpp

Pointers are byte offsets from `arr`.  List iterators are node numbers (`id`): a `std::list` node keeps
its identity when its fields change or when other nodes are inserted or erased.
`size_t` is 64 bit, `int` 32 bit.
-/

namespace Cnine

/-- include/Cnine_base_helpers.hpp:12-14 `roundup(x,s)`; C++ `/` truncates towards zero. -/
def roundup (x s : Int) : Int := (Int.tdiv (x - 1) s + 1) * s

/-- Conversion `int` → `size_t` in the comparisons of include/SimpleMemoryManager.hpp:97,104,106. -/
def toSize (n : Int) : Nat := (n % 18446744073709551616).toNat

/-- include/SimpleMemoryManager.hpp:24-34 `SimpleMemoryBlock`, with the identity of its list node. -/
structure Blk where
  id : Nat
  beg : Nat
  size : Nat
  used : Bool
  deriving Repr, DecidableEq

/-- include/SimpleMemoryManager.hpp:42-49: `_size`, `blocks`, `block_map`; `next` numbers new list nodes. -/
structure Mgr where
  total : Nat
  blocks : List Blk
  map : Nat → Option Nat
  next : Nat

namespace Mgr

/-- include/SimpleMemoryManager.hpp:52-60: constructor. -/
def init (sz : Nat) : Mgr :=
  let t := sz / 128 * 128
  let t := if t = 0 then 1 else t
  ⟨t, [⟨0, 0, t, false⟩], fun _ => none, 1⟩

/-- include/SimpleMemoryManager.hpp:96-99: the first-fit scan; returns the nodes before, at, and after `it`. -/
def search (n : Nat) : List Blk → Option (List Blk × Blk × List Blk)
  | [] => none
  | b :: l =>
    if b.used || decide (b.size < n) then (search n l).map fun t => (b :: t.1, t.2.1, t.2.2)
    else some ([], b, l)

/-- include/SimpleMemoryManager.hpp:93-112: `malloc(_n)`.  `roundup` overflows `int` (undefined) when the
rounded size exceeds `INT_MAX`. -/
def malloc (n0 : Int) (s : Mgr) : Res (Mgr × Nat) :=
  let r := roundup n0 128
  if r > 2147483647 then .ub else
  let n := toSize r
  match search n s.blocks with
  | none => .throw
  | some (pre, b, post) =>
    let rest := if n < b.size then ⟨s.next, b.beg + n, b.size - n, false⟩ :: post else post
    .ok ({ s with
      blocks := pre ++ { b with size := n, used := true } :: rest
      map := fun p => if p = b.beg then some b.id else s.map p
      next := s.next + 1 }, b.beg)

/-- The node an iterator points to, with the nodes before and after it. -/
def locate (i : Nat) : List Blk → Option (List Blk × Blk × List Blk)
  | [] => none
  | b :: l => if b.id = i then some ([], b, l) else (locate i l).map fun t => (b :: t.1, t.2.1, t.2.2)

/-- include/SimpleMemoryManager.hpp:126-132.  `std::next(it)` may be `end()`, whose `used` field is read
all the same: `endUsed = none` is the C++ standard's reading (undefined), `some u` assumes the read gives
`u` without further harm.  When that is `false` the sentinel is erased, which is undefined in any case. -/
def mergeNext (endUsed : Option Bool) (b : Blk) : List Blk → Res (Blk × List Blk)
  | [] => if endUsed = some true then .ok (b, []) else .ub
  | c :: post => if c.used then .ok (b, c :: post) else .ok ({ b with size := b.size + c.size }, post)

/-- include/SimpleMemoryManager.hpp:134-140. -/
def mergePrev : List Blk → Blk → List Blk
  | [], b => [b]
  | [c], b => if c.used then [c, b] else [{ c with size := c.size + b.size }]
  | c :: d :: l, b => c :: mergePrev (d :: l) b

/-- include/SimpleMemoryManager.hpp:115-142: `free(p)`.  `itt` is used after `block_map.erase(p)`:
`erasedReadable = false` is the standard's reading (undefined), `true` assumes the erased node still holds
the iterator.  If `p` is not in the map, `itt` is `end()` and its use is undefined. -/
def free (erasedReadable : Bool) (endUsed : Option Bool) (p : Nat) (s : Mgr) : Res Mgr :=
  match s.map p with
  | none => .ub
  | some i =>
    if erasedReadable = false then .ub else
    match locate i s.blocks with
    | none => .ub
    | some (pre, b, post) => do
      let t ← mergeNext endUsed { b with used := false } post
      .ok { s with
        blocks := mergePrev pre t.1 ++ t.2
        map := fun q => if q = p then none else s.map q }

/-- include/SimpleMemoryManager.hpp:144-148: `clear()`. -/
def clear (s : Mgr) : Mgr :=
  { s with blocks := [⟨s.next, 0, s.total, false⟩], map := fun _ => none, next := s.next + 1 }

end Mgr
end Cnine
