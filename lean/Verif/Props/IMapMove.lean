import Verif.Model.IMapMove
import Verif.Props.Maps

/-! # Properties of the moves and the end of indexed maps (containers/indexed_map.hpp) -/

namespace Cnine.IMap

variable {κ ω : Type} [LinearOrder κ]

/-! ### C657: the end of a map -/

theorem deleteAll_ok : ∀ (l : List Nat) (h : OHeap ω), (∀ p, p ∈ l → p ≠ 0 → h.cell p ≠ none) → (l.filter (· ≠ 0)).Nodup →
    ∃ h', deleteAll h l = .ok h' ∧ h'.next = h.next ∧ (∀ p, p ∈ l → p ≠ 0 → h'.cell p = none) ∧
      ∀ p, p ∉ l ∨ p = 0 → h'.cell p = h.cell p
  | [], h, _, _ => ⟨h, rfl, rfl, by simp, fun _ _ => rfl⟩
  | p :: l, h, A, D => by
    by_cases hp : p = 0
    · subst hp
      obtain ⟨h', e, n, a, b⟩ := deleteAll_ok l h (fun q hq => A q (List.mem_cons_of_mem _ hq)) (by simpa using D)
      refine ⟨h', ?_, n, ?_, ?_⟩
      · unfold deleteAll delete; rw [if_pos rfl, Res.ok_bind, e]
      · intro q hq h0
        rcases List.mem_cons.mp hq with rfl | hq
        · exact absurd rfl h0
        · exact a q hq h0
      · intro q hq
        refine b q ?_
        rcases hq with hq | hq
        · exact .inl fun hm => hq (List.mem_cons_of_mem _ hm)
        · exact .inr hq
    · have D' : p ∉ l.filter (· ≠ 0) ∧ (l.filter (· ≠ 0)).Nodup := by
        rw [List.filter_cons_of_pos (by simpa using hp)] at D
        exact List.nodup_cons.mp D
      have hpl : p ∉ l := fun hm => D'.1 (List.mem_filter.mpr ⟨hm, by simpa using hp⟩)
      obtain ⟨o, ho⟩ := Option.ne_none_iff_exists'.mp (A p List.mem_cons_self hp)
      obtain ⟨h', e, n, a, b⟩ := deleteAll_ok l ⟨fun q => if q = p then none else h.cell q, h.next⟩ (by
        intro q hq h0
        have hqp : q ≠ p := fun e => hpl (e ▸ hq)
        show (if q = p then none else h.cell q) ≠ none
        rw [if_neg hqp]
        exact A q (List.mem_cons_of_mem _ hq) h0) D'.2
      refine ⟨h', ?_, n, ?_, ?_⟩
      · unfold deleteAll delete; rw [if_neg hp, ho]; exact e
      · intro q hq h0
        rcases List.mem_cons.mp hq with rfl | hq
        · rw [b q (.inl hpl)]; exact if_pos rfl
        · exact a q hq h0
      · intro q hq
        have hqp : q ≠ p := by
          rcases hq with hq | hq
          · exact fun e => hq (e ▸ List.mem_cons_self)
          · exact fun e => hp (e ▸ hq)
        rw [b q (by
          rcases hq with hq | hq
          · exact .inl fun hm => hq (List.mem_cons_of_mem _ hm)
          · exact .inr hq)]
        exact if_neg hqp

omit [LinearOrder κ] in
/-- C657: when the pointers, but for null, are different and lead to objects, the end of the map deletes exactly these objects. -/
theorem C657_finish (h : OHeap ω) (m : IMap κ) (A : ∀ p, p ∈ m.v → p ≠ 0 → h.cell p ≠ none) (D : (m.v.filter (· ≠ 0)).Nodup) :
    ∃ h', finish h m = .ok h' ∧ (∀ p, p ∈ m.v → p ≠ 0 → h'.cell p = none) ∧ ∀ p, p ∉ m.v → h'.cell p = h.cell p := by
  obtain ⟨h', e, _, a, b⟩ := deleteAll_ok m.v h A D
  exact ⟨h', e, a, fun p hp => b p (.inl hp)⟩

example : ∃ h', finish exHeap (inserted [(5, 1), (3, 2)] : IMap Nat) = .ok h' ∧ h'.cell 2 = none := by
  obtain ⟨h', e, a, _⟩ := C657_finish exHeap (inserted [(5, 1), (3, 2)] : IMap Nat) (by decide) (by decide)
  exact ⟨h', e, a 2 (by decide) (by decide)⟩

/-! ### C658: moves -/

/-- C658: the new map answers as the old one did; the old one is empty and its end changes nothing. -/
theorem C658_ctor (h : OHeap ω) (x : IMap κ) :
    (∀ k, (moveCtor x).1.exists? k = x.exists? k ∧ ((moveCtor x).1.atKey k).1 = (x.atKey k).1) ∧
      (∀ i, (moveCtor x).1.atIdx i = x.atIdx i) ∧ (moveCtor x).1.size = x.size ∧ (moveCtor x).2.size = 0 ∧
      (∀ k, (moveCtor x).2.exists? k = false) ∧ finish h (moveCtor x).2 = .ok h := by
  refine ⟨fun k => ⟨rfl, rfl⟩, fun _ => rfl, rfl, rfl, fun k => ?_, rfl⟩
  simp [moveCtor, exists?, OMap.find?]

omit [LinearOrder κ] in
/-- C658 (`indexed_mapB`, into another map): exactly the objects of the target are deleted, the target takes over the source,
the source is empty. -/
theorem C658_assign_partial (h : OHeap ω) (m x : IMap κ) (A : ∀ p, p ∈ m.v → p ≠ 0 → h.cell p ≠ none) (D : (m.v.filter (· ≠ 0)).Nodup)
    (S : ∀ p, p ∈ x.v → p ∉ m.v) :
    ∃ h' , moveAssign h m x = .ok (h', x, ⟨[], []⟩) ∧ (∀ p, p ∈ m.v → p ≠ 0 → h'.cell p = none) ∧ ∀ p, p ∈ x.v → h'.cell p = h.cell p := by
  obtain ⟨h', e, _, a, b⟩ := deleteAll_ok m.v h A D
  refine ⟨h', ?_, a, fun p hp => b p (.inl (S p hp))⟩
  unfold moveAssign wipe
  rw [e]
  rfl

omit [LinearOrder κ] in
/-- C658: a map moved into itself loses everything. -/
theorem C658_self_fails (h : OHeap ω) (m : IMap κ) (A : ∀ p, p ∈ m.v → p ≠ 0 → h.cell p ≠ none) (D : (m.v.filter (· ≠ 0)).Nodup) :
    ∃ h', moveAssignSelf h m = .ok (h', ⟨[], []⟩) ∧ ∀ p, p ∈ m.v → p ≠ 0 → h'.cell p = none := by
  obtain ⟨h', e, _, a, _⟩ := deleteAll_ok m.v h A D
  refine ⟨h', ?_, a⟩
  unfold moveAssignSelf wipe
  rw [e]
  rfl

omit [LinearOrder κ] in
/-- C658 (`indexed_map`): the assignment is undefined; and its body forgets the objects of the target without deleting them: after
the end of both maps they are still there. -/
theorem C658_old_fails (h : OHeap ω) (m x : IMap κ) (A : ∀ p, p ∈ x.v → p ≠ 0 → h.cell p ≠ none) (D : (x.v.filter (· ≠ 0)).Nodup)
    (S : ∀ p, p ∈ m.v → p ∉ x.v) :
    moveAssignOldCall m x = .ub ∧ ∃ h1, finish h (moveAssignOld m x).1 = .ok h1 ∧ finish h1 (moveAssignOld m x).2 = .ok h1 ∧
      ∀ p, p ∈ m.v → h1.cell p = h.cell p := by
  obtain ⟨h', e, _, _, b⟩ := deleteAll_ok x.v h A D
  exact ⟨rfl, h', e, rfl, fun p hp => b p (.inl (S p hp))⟩

example : ∃ h', moveAssign exHeap (inserted [(5, 1)] : IMap Nat) (inserted [(3, 2)]) = .ok (h', inserted [(3, 2)], ⟨[], []⟩) ∧ h'.cell 1 = none := by
  obtain ⟨h', e, a, _⟩ := C658_assign_partial exHeap (inserted [(5, 1)] : IMap Nat) (inserted [(3, 2)]) (by decide) (by decide) (by decide)
  exact ⟨h', e, a 1 (by decide) (by decide)⟩
example := C658_self_fails exHeap (inserted [(5, 1), (3, 2)] : IMap Nat) (by decide) (by decide)
example := C658_old_fails exHeap (inserted [(5, 1)] : IMap Nat) (inserted [(3, 2)]) (by decide) (by decide) (by decide)
example : ((moveCtor (inserted [(5, 1), (3, 2)] : IMap Nat)).1.atKey 3).1 = 2 := by decide

end Cnine.IMap
