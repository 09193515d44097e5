import Verif.Model.Monitored

/-! # Properties of objects made when first asked for (utility/monitored.hpp) -/

namespace Cnine.Mon

variable {α : Type _}

theorem uses_made : ∀ (l : List Bool) (M : Mon α) (T : List Nat) (a : α), M.obj = some a →
    uses l M T = .ok (List.replicate l.length (some a), M, T)
  | [], _, _, _, _ => rfl
  | b :: l, M, T, a, h => by
    have e : ensure M T = .ok (M, T) := by unfold ensure; rw [h]
    cases b
    · simp only [uses, shared, e, Res.ok_bind, h, uses_made l M T a h]; rfl
    · simp only [uses, access, e, Res.ok_bind, h, uses_made l M T a h]; rfl

/-- C621: however often and in whatever way the object is asked for, it is made once, every use gives that same object, and the
monitor, if there is one, watches it once and watches nothing else new. -/
theorem C621_made_once (l : List Bool) (hl : l ≠ []) (self : Nat) (watched : Bool) (f : Nat → Option α) (a : α) (ha : f 0 = some a)
    (T : List Nat) : ∃ M' T', uses l (new self watched f) T = .ok (List.replicate l.length (some a), M', T') ∧
      M'.calls = 1 ∧ M'.obj = some a ∧ (∀ t, t ∈ T' ↔ t ∈ T ∨ (watched = true ∧ t = self)) ∧ (T.Nodup → T'.Nodup) := by
  cases l with
  | nil => exact absurd rfl hl
  | cons b l =>
    let M' : Mon α := ⟨self, watched, some a, some f, 1⟩
    let T' := if watched then setIns self T else T
    have e : ensure (new self watched f) T = .ok (M', T') := by
      unfold ensure new make
      simp only [ha]
      rfl
    refine ⟨M', T', ?_, rfl, rfl, ?_, ?_⟩
    · cases b
      · simp only [uses, shared, e, Res.ok_bind, uses_made l M' T' a rfl]; rfl
      · simp only [uses, access, e, Res.ok_bind, uses_made l M' T' a rfl, M']; rfl
    · intro t
      cases watched
      · simp [T']
      · simp only [T', setIns]
        by_cases hs : self ∈ T
        · simp [hs]; intro e; subst e; exact hs
        · simp [hs]
    · intro hT
      cases watched
      · exact hT
      · simp only [T', setIns]
        by_cases hs : self ∈ T
        · simp [hs, hT]
        · simp only [hs, if_true, if_false]
          rw [List.nodup_append]
          refine ⟨hT, by simp, ?_⟩
          intro x hx y hy
          simp at hy; subst hy
          intro e; subst e; exact hs hx

/-- C621: a function that returns a null pointer: asking for the object is undefined. -/
theorem C621_null (self : Nat) (watched : Bool) (f : Nat → Option α) (h : f 0 = none) (T : List Nat) :
    access (new self watched f) T = .ub := by
  unfold access ensure new make
  simp only [h]
  rfl

example : ∃ M' T', uses [true, false, true] (new 4 true fun k => some (10 + k)) [2] = .ok ([some 10, some 10, some 10], M', T') ∧
    M'.calls = 1 ∧ 4 ∈ T' := by
  obtain ⟨M', T', a, b, _, c, _⟩ := C621_made_once [true, false, true] (by simp) 4 true (fun k => some (10 + k)) 10 rfl [2]
  exact ⟨M', T', a, b, (c 4).mpr (Or.inr ⟨rfl, rfl⟩)⟩
example : access (new 4 true fun _ => (none : Option Nat)) [] = .ub := C621_null 4 true _ rfl []

/-- C622 (copies of objects already made): the copy gives the same object, without making it again. -/
theorem C622_copy_partial (l : List Bool) (self : Nat) (x : Mon α) (a : α) (h : x.obj = some a) (T : List Nat) :
    uses l (copy self x) T = .ok (List.replicate l.length (some a), copy self x, T) := uses_made l _ T a h

/-- C622: the copy of an object not made yet can never be used, though the original can: every use throws. -/
theorem C622_copy_unmade_fails (self orig : Nat) (watched : Bool) (f : Nat → Option α) (a : α) (ha : f 0 = some a) (T : List Nat) :
    (∃ r, access (new orig watched f) T = .ok (a, r)) ∧ access (copy self (new orig watched f)) T = .throw ∧
      shared (copy self (new orig watched f)) T = .throw := by
  refine ⟨⟨({ new orig watched f with obj := some a, calls := 1 }, if watched then setIns orig T else T), ?_⟩, rfl, rfl⟩
  · unfold access ensure new make
    simp only [ha]
    rfl

/-- C622: a copy of an object already made is never reported to the monitor it points to. -/
theorem C622_copy_not_watched_fails (l : List Bool) (self : Nat) (x : Mon α) (a : α) (h : x.obj = some a) (hw : x.watched = true)
    (T : List Nat) (hs : self ∉ T) : ∃ vs M' T', uses l (copy self x) T = .ok (vs, M', T') ∧ M'.watched = true ∧ self ∉ T' :=
  ⟨_, _, _, C622_copy_partial l self x a h T, hw, hs⟩

example : uses [true, true] (copy 9 ⟨4, true, some 10, some fun _ => some 3, 1⟩) [4] =
    .ok ([some 10, some 10], copy 9 ⟨4, true, some 10, some fun _ => some 3, 1⟩, [4]) :=
  C622_copy_partial [true, true] 9 _ 10 rfl [4]
example : access (copy 9 (new 4 true fun _ => some 3)) [] = .throw := (C622_copy_unmade_fails 9 4 true _ 3 rfl []).2.1
example : ∃ vs M' T', uses [true] (copy 9 ⟨4, true, some 10, some fun _ => some 3, 1⟩) [4] = .ok (vs, M', T') ∧
    M'.watched = true ∧ 9 ∉ T' := C622_copy_not_watched_fails [true] 9 _ 10 rfl rfl [4] (by decide)

end Cnine.Mon
