import Verif.Model.Maps

/-!
# Model of the moves of containers/indexed_map.hpp

With the conventions of `IMap` in `Model/Maps`.  A function that ends without the `return` it owes is undefined.
-/

namespace Cnine.IMap

variable {κ ω : Type} [LinearOrder κ]

omit [LinearOrder κ] in
/-- containers/indexed_map.hpp:112-115 (= 36-39): the destructor. -/
def finish (h : OHeap ω) (m : IMap κ) : Res (OHeap ω) := deleteAll h m.v

omit [LinearOrder κ] in
/-- containers/indexed_map.hpp:129-134: the new map, and what is left of `x`. -/
def moveCtor (x : IMap κ) : IMap κ × IMap κ := (⟨x.v, x.map⟩, ⟨[], []⟩)

omit [LinearOrder κ] in
/-- containers/indexed_map.hpp:144-151: move into another map: that map, and what is left of `x`. -/
def moveAssign (h : OHeap ω) (m x : IMap κ) : Res (OHeap ω × IMap κ × IMap κ) := do
  let r ← wipe h m
  .ok (r.1, ⟨x.v, x.map⟩, ⟨[], []⟩)

omit [LinearOrder κ] in
/-- containers/indexed_map.hpp:144-151: a map moved into itself, `x` being `*this` also after line 145. -/
def moveAssignSelf (h : OHeap ω) (m : IMap κ) : Res (OHeap ω × IMap κ) := do
  let r ← wipe h m
  .ok (r.1, clear ⟨r.2.v, r.2.map⟩)

omit [LinearOrder κ] in
/-- containers/indexed_map.hpp:45-50: what the body of the assignment of `indexed_map` leaves. -/
def moveAssignOld (_m x : IMap κ) : IMap κ × IMap κ := (⟨x.v, x.map⟩, ⟨[], []⟩)

omit [LinearOrder κ] in
/-- containers/indexed_map.hpp:45-50: there is no `return`. -/
def moveAssignOldCall (m x : IMap κ) : Res (IMap κ × IMap κ) :=
  let _ := moveAssignOld m x
  .ub

end Cnine.IMap
