import Verif.Model.OMap
import Mathlib.Data.List.Nodup

/-! # Lemmas about ordered maps -/

namespace Cnine

namespace OMap

variable {κ υ : Type _} [LinearOrder κ]

theorem sorted_nil : Sorted ([] : OMap κ υ) := List.Pairwise.nil

theorem sorted_cons {k : κ} {v : υ} {m : OMap κ υ} :
    Sorted ((k, v) :: m) ↔ (∀ p ∈ m, k < p.1) ∧ Sorted m := by
  unfold Sorted
  rw [List.map_cons, List.pairwise_cons]
  simp only [List.mem_map, forall_exists_index, and_imp]
  constructor
  · rintro ⟨h, h'⟩; exact ⟨fun p hp => h _ p hp rfl, h'⟩
  · rintro ⟨h, h'⟩; exact ⟨fun a p hp e => e ▸ h p hp, h'⟩

theorem mem_set_key {k : κ} {v : υ} : ∀ {m : OMap κ υ} {p : κ × υ}, p ∈ set k v m → p = (k, v) ∨ p ∈ m
  | [], p, h => by simp [set] at h; exact Or.inl h
  | (k', v') :: m, p, h => by
    unfold set at h
    split at h
    · rcases List.mem_cons.mp h with h | h
      · exact Or.inl h
      · exact Or.inr h
    · split at h
      · rcases List.mem_cons.mp h with h | h
        · exact Or.inl h
        · exact Or.inr (List.mem_cons_of_mem _ h)
      · rcases List.mem_cons.mp h with h | h
        · exact Or.inr (h ▸ List.mem_cons_self)
        · rcases mem_set_key h with h | h
          · exact Or.inl h
          · exact Or.inr (List.mem_cons_of_mem _ h)

theorem Sorted.set {m : OMap κ υ} (h : Sorted m) (k : κ) (v : υ) : Sorted (set k v m) := by
  induction m with
  | nil => unfold OMap.set; exact sorted_cons.mpr ⟨by simp, sorted_nil⟩
  | cons q m ih =>
    obtain ⟨k', v'⟩ := q
    have h' := sorted_cons.mp h
    unfold OMap.set
    split
    · rename_i c
      refine sorted_cons.mpr ⟨fun p hp => ?_, h⟩
      rcases List.mem_cons.mp hp with e | e
      · subst e; exact c
      · exact lt_trans c (h'.1 p e)
    · split
      · rename_i c; subst c
        exact sorted_cons.mpr h'
      · rename_i c1 c2
        refine sorted_cons.mpr ⟨fun p hp => ?_, ih h'.2⟩
        rcases mem_set_key hp with e | e
        · subst e; exact lt_of_le_of_ne (not_lt.mp c1) (Ne.symm c2)
        · exact h'.1 p e

theorem find?_none_of_lt {k : κ} : ∀ {m : OMap κ υ}, (∀ p ∈ m, k < p.1) → find? k m = none
  | [], _ => rfl
  | (k', v') :: m, h => by
    unfold find?
    rw [if_neg (ne_of_lt (h (k', v') (by simp)))]
    exact find?_none_of_lt fun p hp => h p (List.mem_cons_of_mem _ hp)

theorem find?_set {m : OMap κ υ} (k : κ) (v : υ) (j : κ) :
    find? j (set k v m) = if j = k then some v else find? j m := by
  induction m with
  | nil => unfold OMap.set find?; rfl
  | cons q m ih =>
    obtain ⟨k', v'⟩ := q
    unfold OMap.set
    split
    · rw [find?]
    · split
      · rename_i c; subst c
        simp only [find?]
        split <;> rfl
      · rename_i c1 c2
        rw [find?, ih, find?]
        by_cases e : j = k'
        · rw [if_pos e, if_pos e, if_neg]
          exact fun e' => c2 (by rw [← e', e])
        · rw [if_neg e, if_neg e]

theorem find?_set_self {m : OMap κ υ} (k : κ) (v : υ) : find? k (set k v m) = some v := by rw [find?_set, if_pos rfl]

theorem find?_set_ne {m : OMap κ υ} {k j : κ} (v : υ) (h : j ≠ k) : find? j (set k v m) = find? j m := by
  rw [find?_set, if_neg h]

theorem mem_of_find? {k : κ} {v : υ} : ∀ {m : OMap κ υ}, find? k m = some v → (k, v) ∈ m
  | (k', v') :: m, h => by
    unfold find? at h
    split at h
    · rename_i c; subst c; cases h; exact List.mem_cons_self
    · exact List.mem_cons_of_mem _ (mem_of_find? h)

theorem find?_of_mem {k : κ} {v : υ} : ∀ {m : OMap κ υ}, Sorted m → (k, v) ∈ m → find? k m = some v
  | (k', v') :: m, hs, h => by
    have hs' := sorted_cons.mp hs
    unfold find?
    rcases List.mem_cons.mp h with e | e
    · cases e; rw [if_pos rfl]
    · rw [if_neg (ne_of_gt (hs'.1 _ e))]
      exact find?_of_mem hs'.2 e

theorem mem_iff {k : κ} {v : υ} {m : OMap κ υ} (h : Sorted m) : (k, v) ∈ m ↔ find? k m = some v :=
  ⟨find?_of_mem h, mem_of_find?⟩

theorem find?_isSome {k : κ} {m : OMap κ υ} : (find? k m).isSome ↔ k ∈ m.map Prod.fst := by
  induction m with
  | nil => simp [find?]
  | cons q m ih =>
    obtain ⟨k', v'⟩ := q
    unfold find?
    split
    · rename_i c; simp [c]
    · rename_i c
      rw [ih]
      simp only [List.map_cons, List.mem_cons]
      constructor
      · exact Or.inr
      · rintro (e | e)
        · exact absurd e c
        · exact e

theorem find?_eq_none {k : κ} {m : OMap κ υ} : find? k m = none ↔ k ∉ m.map Prod.fst := by
  rw [← find?_isSome]; cases find? k m <;> simp

theorem Sorted.nodup {m : OMap κ υ} (h : Sorted m) : (m.map Prod.fst).Nodup :=
  List.Pairwise.imp (fun hab => ne_of_lt hab) h

theorem Sorted.nodup' {m : OMap κ υ} (h : Sorted m) : m.Nodup := List.Nodup.of_map _ h.nodup

theorem Sorted.erase {m : OMap κ υ} (h : Sorted m) (k : κ) : Sorted (erase k m) := by
  unfold Sorted OMap.erase
  exact List.Pairwise.sublist (List.Sublist.map _ List.filter_sublist) h

theorem find?_erase (k j : κ) : ∀ (m : OMap κ υ), find? j (erase k m) = if j = k then none else find? j m
  | [] => by simp [erase, find?]
  | (k', v') :: m => by
    have ih := find?_erase k j m
    unfold erase at ih ⊢
    by_cases c : k' = k
    · rw [List.filter_cons_of_neg (by simp [c]), ih]
      split
      · rfl
      · rename_i c1
        rw [find?, if_neg]
        rw [c]; exact c1
    · rw [List.filter_cons_of_pos (by simp [c]), find?, ih, find?]
      by_cases e : j = k'
      · rw [if_pos e, if_pos e, if_neg]
        rw [e]; exact c
      · rw [if_neg e, if_neg e]

/-- Ordered maps with the same entries are the same list. -/
theorem ext : ∀ {m m' : OMap κ υ}, Sorted m → Sorted m' → (∀ k, find? k m = find? k m') → m = m'
  | [], [], _, _, _ => rfl
  | [], (k, v) :: m', _, _, h => by
    have := h k; simp [find?] at this
  | (k, v) :: m, [], _, _, h => by
    have := h k; simp [find?] at this
  | (k, v) :: m, (k', v') :: m', hs, hs', h => by
    have a := sorted_cons.mp hs
    have a' := sorted_cons.mp hs'
    have e : k = k' := by
      rcases lt_trichotomy k k' with c | c | c
      · have h1 := h k
        rw [find?, if_pos rfl, find?, if_neg (ne_of_lt c),
          find?_none_of_lt (fun p hp => lt_trans c (a'.1 p hp))] at h1
        cases h1
      · exact c
      · have h1 := h k'
        rw [find?, if_neg (ne_of_lt c), find?_none_of_lt (fun p hp => lt_trans c (a.1 p hp)),
          find?, if_pos rfl] at h1
        cases h1
    subst e
    have hv := h k
    rw [find?, if_pos rfl, find?, if_pos rfl] at hv
    cases hv
    congr 1
    refine ext a.2 a'.2 fun j => ?_
    by_cases c : j = k
    · subst c
      rw [find?_none_of_lt a.1, find?_none_of_lt a'.1]
    · have := h j
      rwa [find?, if_neg c, find?, if_neg c] at this

theorem length_set {k : κ} {v : υ} {m : OMap κ υ} (hs : Sorted m) :
    (set k v m).length = m.length + (if (find? k m).isSome then 0 else 1) := by
  induction m with
  | nil => rfl
  | cons q m ih =>
    obtain ⟨k', v'⟩ := q
    have a := sorted_cons.mp hs
    unfold OMap.set find?
    split
    · rename_i c
      rw [if_neg (ne_of_lt c), find?_none_of_lt (fun p hp => lt_trans c (a.1 p hp))]
      simp
    · split
      · simp
      · rename_i c1 c2
        simp only [List.length_cons, ih a.2]
        omega

/-- Setting a new key inserts one entry. -/
theorem set_perm_new {k : κ} {v : υ} : ∀ {m : OMap κ υ}, find? k m = none → (set k v m).Perm ((k, v) :: m)
  | [], _ => List.Perm.refl _
  | (k', v') :: m, h => by
    unfold find? at h
    split at h
    · cases h
    · rename_i c
      unfold set
      split
      · exact List.Perm.refl _
      · exact ((set_perm_new h).cons _).trans (List.Perm.swap _ _ _)

end OMap

end Cnine
