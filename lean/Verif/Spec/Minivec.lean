import Verif.Model.Minivec

/-! # What a vector holds, and who owns which block (containers/minivec.hpp:28-31) -/

namespace Cnine.MV

variable {α : Type _}

/-- The vector holds exactly the list `xs`, in a block on the side its `dev` says. -/
def Holds (h : Heap α) (v : Vec) (xs : List α) : Prop :=
  v.size = xs.length ∧ ∃ p b, v.arr = some p ∧ p < h.next ∧ h.blk p = some b ∧ b.gpu = decide (v.dev ≠ 0) ∧
    b.cells.length = max xs.length 1 ∧ ∀ k (hk : k < xs.length), b.cells[k]? = some (some xs[k])

/-- The heap is as before except for what lies at new addresses. -/
def Grown (h h' : Heap α) : Prop := h.next ≤ h'.next ∧ ∀ p, p < h.next → h'.blk p = h.blk p

/-- Host or the one GPU the code knows. -/
def Known (d : Int) : Prop := d = 0 ∨ d = 1

/-- Each vector alive owns its block alone, the block lies on the side the vector says, and each block alive has an owner. -/
structure Owned (s : St α) : Prop where
  side : ∀ i v, s.vecs i = some v → Known v.dev ∧ ∀ p, v.arr = some p → p < s.heap.next ∧
    ∃ b, s.heap.blk p = some b ∧ b.gpu = decide (v.dev ≠ 0)
  alone : ∀ i j v w p, s.vecs i = some v → s.vecs j = some w → v.arr = some p → w.arr = some p → i = j
  owner : ∀ p b, s.heap.blk p = some b → p < s.heap.next ∧ ∃ i v, s.vecs i = some v ∧ v.arr = some p
  fresh : ∀ i, s.count ≤ i → s.vecs i = none

/-- The calls for which ownership is kept: only devices 0 and 1 are named and no vector on the GPU is moved from. -/
def Safe (s : St α) : Op α → Prop
  | .mk _ d => Known d
  | .transport _ d => Known d
  | .moveTo _ d => Known d
  | .move i => ∀ v, s.vecs i = some v → v.dev = 0
  | _ => True

/-- The states a program reaches by such calls, none of them undefined. -/
inductive Reach [Add α] : St α → Prop
  | start : Reach ⟨Heap.empty, fun _ => none, 0⟩
  | call (s s' : St α) (o : Op α) : Reach s → Safe s o → step s o = .ok s' → Reach s'

end Cnine.MV
