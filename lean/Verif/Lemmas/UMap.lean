import Verif.Model.UMap
import Mathlib.Data.List.Nodup
import Mathlib.Data.List.Perm.Basic

/-! # Lemmas about `UMap` -/

namespace Cnine

namespace UMap

variable {κ υ : Type _} [DecidableEq κ]

theorem ok_nil : Ok ([] : UMap κ υ) := List.nodup_nil

theorem mem_of_find? {k : κ} {v : υ} : ∀ {m : UMap κ υ}, find? k m = some v → (k, v) ∈ m
  | (k', v') :: m, h => by
    unfold find? at h
    split at h
    · rename_i e; subst e; injection h with h; subst h; exact List.mem_cons_self
    · exact List.mem_cons_of_mem _ (mem_of_find? h)

theorem find?_isSome {k : κ} : ∀ {m : UMap κ υ}, (find? k m).isSome ↔ k ∈ m.map Prod.fst
  | [] => by simp [find?]
  | (k', v') :: m => by
    unfold find?
    split
    · rename_i e; subst e; simp
    · rename_i e
      rw [find?_isSome]
      simp [e]

theorem find?_eq_none {k : κ} {m : UMap κ υ} : find? k m = none ↔ k ∉ m.map Prod.fst := by
  rw [← find?_isSome]
  cases find? k m <;> simp

theorem find?_of_mem {k : κ} {v : υ} : ∀ {m : UMap κ υ}, Ok m → (k, v) ∈ m → find? k m = some v
  | (k', v') :: m, h, hm => by
    obtain ⟨h1, h2⟩ := List.nodup_cons.mp h
    unfold find?
    rcases List.mem_cons.mp hm with e | hm'
    · injection e with e1 e2; subst e1 e2; rw [if_pos rfl]
    · rw [if_neg, find?_of_mem h2 hm']
      rintro rfl
      exact h1 (List.mem_map.mpr ⟨(k, v), hm', rfl⟩)

theorem mem_iff {k : κ} {v : υ} {m : UMap κ υ} (h : Ok m) : (k, v) ∈ m ↔ find? k m = some v :=
  ⟨find?_of_mem h, mem_of_find?⟩

theorem find?_append (k : κ) : ∀ (m m' : UMap κ υ), find? k (m ++ m') = (find? k m).or (find? k m')
  | [], m' => by simp [find?]
  | (k', v') :: m, m' => by
    rw [List.cons_append]
    by_cases c : k = k'
    · simp [find?, c]
    · simp only [find?, if_neg c]
      exact find?_append k m m'

theorem find?_set {k : κ} {v : υ} (j : κ) : ∀ (m : UMap κ υ), find? j (set k v m) = if j = k then some v else find? j m
  | [] => by simp [set, find?]
  | (k', v') :: m => by
    unfold set
    split
    · rename_i e; subst e
      unfold find?
      split <;> rfl
    · rename_i e
      unfold find?
      rw [find?_set j m]
      by_cases c : j = k'
      · subst c
        rw [if_pos rfl, if_neg (Ne.symm e), if_pos rfl]
      · rw [if_neg c, if_neg c]

theorem find?_erase (k j : κ) : ∀ (m : UMap κ υ), find? j (erase k m) = if j = k then none else find? j m
  | [] => by simp [erase, find?]
  | (k', v') :: m => by
    unfold erase
    rw [List.filter_cons]
    have ih := find?_erase k j m
    unfold erase at ih
    by_cases c : k' = k
    · subst c
      rw [if_neg (by simp), ih]
      by_cases d : j = k'
      · rw [if_pos d, if_pos d]
      · rw [if_neg d, if_neg d]
        conv_rhs => unfold find?
        rw [if_neg d]
    · rw [if_pos (by simp [c])]
      unfold find?
      rw [ih]
      by_cases d : j = k'
      · subst d
        rw [if_pos rfl, if_neg c, if_pos rfl]
      · rw [if_neg d, if_neg d]

theorem find?_emplace (k : κ) (v : υ) (j : κ) (m : UMap κ υ) :
    find? j (emplace k v m) = if j = k then some ((find? k m).getD v) else find? j m := by
  unfold emplace
  cases h : find? k m with
  | some w =>
    dsimp only
    split
    · rename_i e; subst e; rw [h]; rfl
    · rfl
  | none =>
    dsimp only
    rw [find?_append]
    by_cases c : j = k
    · subst c
      rw [h, if_pos rfl]
      simp [find?]
    · rw [if_neg c]
      simp [find?, c]

theorem keys_set (k : κ) (v : υ) : ∀ (m : UMap κ υ), (set k v m).map Prod.fst =
    if k ∈ m.map Prod.fst then m.map Prod.fst else m.map Prod.fst ++ [k]
  | [] => by simp [set]
  | (k', v') :: m => by
    unfold set
    split
    · rename_i e; subst e; simp
    · rename_i e
      rw [List.map_cons, keys_set k v m]
      by_cases c : k ∈ m.map Prod.fst
      · rw [if_pos c, if_pos (by simpa using Or.inr c)]; rfl
      · rw [if_neg c, if_neg]
        · rfl
        · rw [List.map_cons, List.mem_cons]
          rintro (h | h)
          · exact e h
          · exact c h

theorem mem_set {k : κ} {v : υ} {p : κ × υ} : ∀ {m : UMap κ υ}, p ∈ set k v m → p = (k, v) ∨ p ∈ m
  | [], h => by simpa [set] using h
  | (k', v') :: m, h => by
    unfold set at h
    split at h
    · rcases List.mem_cons.mp h with h | h
      · exact Or.inl h
      · exact Or.inr (List.mem_cons_of_mem _ h)
    · rcases List.mem_cons.mp h with h | h
      · exact Or.inr (h ▸ List.mem_cons_self)
      · rcases mem_set h with h | h
        · exact Or.inl h
        · exact Or.inr (List.mem_cons_of_mem _ h)

theorem Ok.set {m : UMap κ υ} (h : Ok m) (k : κ) (v : υ) : Ok (set k v m) := by
  unfold Ok
  rw [keys_set]
  split
  · exact h
  · rename_i c
    exact List.nodup_append.mpr ⟨h, by simp, by rintro a ha b hb rfl; simp at hb; subst hb; exact c ha⟩

theorem Ok.erase {m : UMap κ υ} (h : Ok m) (k : κ) : Ok (erase k m) :=
  h.sublist (List.filter_sublist.map _)

theorem Ok.emplace {m : UMap κ υ} (h : Ok m) (k : κ) (v : υ) : Ok (emplace k v m) := by
  unfold UMap.emplace
  cases hf : find? k m with
  | some w => exact h
  | none =>
    have c := find?_eq_none.mp hf
    dsimp only
    unfold Ok
    rw [List.map_append]
    exact List.nodup_append.mpr ⟨h, by simp, by rintro a ha b hb rfl; simp at hb; subst hb; exact c ha⟩

theorem Ok.nodup {m : UMap κ υ} (h : Ok m) : m.Nodup := List.Nodup.of_map _ h

/-- Two maps with the same lookups have the same entries, up to the order of iteration. -/
theorem perm_of_find? {m m' : UMap κ υ} (h : Ok m) (h' : Ok m') (e : ∀ k, find? k m = find? k m') : m.Perm m' := by
  rw [List.perm_ext_iff_of_nodup h.nodup h'.nodup]
  rintro ⟨k, v⟩
  rw [mem_iff h, mem_iff h', e]

theorem length_set {k : κ} {v : υ} (m : UMap κ υ) :
    (set k v m).length = if (find? k m).isSome then m.length else m.length + 1 := by
  have := congrArg List.length (keys_set k v m)
  rw [List.length_map] at this
  rw [this]
  by_cases c : k ∈ m.map Prod.fst
  · rw [if_pos c, if_pos (find?_isSome.mpr c), List.length_map]
  · rw [if_neg c, if_neg (fun e => c (find?_isSome.mp e)), List.length_append, List.length_map]; rfl

end UMap

end Cnine
