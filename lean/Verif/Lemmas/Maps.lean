import Verif.Model.Maps
import Verif.Lemmas.UMap
import Verif.Lemmas.OMap
import Mathlib.Data.List.Dedup
import Mathlib.Data.List.Perm.Basic

/-! # Lemmas about the maps -/

namespace Cnine

/-! ## Map of maps -/

namespace MoM

variable {κ ι α : Type _} [DecidableEq κ] [DecidableEq ι]

/-- The value at a pair. -/
def look (m : MoM κ ι α) (i : κ) (j : ι) : Option α := (UMap.find? i m).bind (UMap.find? j)

omit [DecidableEq κ] [DecidableEq ι] in
/-- What `set` keeps. -/
def Ok (m : MoM κ ι α) : Prop := UMap.Ok m ∧ ∀ p ∈ m, UMap.Ok p.2 ∧ p.2 ≠ []

omit [DecidableEq κ] [DecidableEq ι] in
theorem ok_nil : Ok ([] : MoM κ ι α) := ⟨List.nodup_nil, by simp⟩

theorem look_set (m : MoM κ ι α) (i : κ) (j : ι) (x : α) (i' : κ) (j' : ι) :
    look (set m i j x) i' j' = if i' = i ∧ j' = j then some x else look m i' j' := by
  unfold look set
  rw [UMap.find?_set]
  by_cases c : i' = i
  · subst c
    rw [if_pos rfl, Option.bind_some, UMap.find?_set]
    by_cases d : j' = j
    · subst d; simp
    · rw [if_neg d, if_neg (by simp [d])]
      cases UMap.find? i' m with
      | none => rfl
      | some r => rfl
  · rw [if_neg c, if_neg (by simp [c])]

theorem Ok.set {m : MoM κ ι α} (h : Ok m) (i : κ) (j : ι) (x : α) : Ok (set m i j x) := by
  refine ⟨UMap.Ok.set h.1 _ _, fun p hp => ?_⟩
  rcases UMap.mem_set hp with rfl | hp
  · dsimp only
    constructor
    · apply UMap.Ok.set
      cases hf : UMap.find? i m with
      | none => exact List.nodup_nil
      | some r => exact (h.2 _ (UMap.mem_of_find? hf)).1
    · intro e
      have := UMap.find?_set (k := j) (v := x) j ((UMap.find? i m).getD [])
      rw [e] at this
      simp [UMap.find?] at this
  · exact h.2 p hp

theorem mem_forEach {m : MoM κ ι α} (h : Ok m) {i : κ} {j : ι} {x : α} : (i, j, x) ∈ m.forEach ↔ look m i j = some x := by
  unfold forEach look
  rw [List.mem_flatMap]
  constructor
  · rintro ⟨p, hp, hm⟩
    obtain ⟨q, hq, e⟩ := List.mem_map.mp hm
    injection e with e1 e2
    injection e2 with e2 e3
    subst e1 e2 e3
    rw [UMap.find?_of_mem h.1 (show (p.1, p.2) ∈ m from hp), Option.bind_some]
    exact UMap.find?_of_mem (h.2 p hp).1 hq
  · intro e
    obtain ⟨r, hr, he⟩ := Option.bind_eq_some_iff.mp e
    exact ⟨(i, r), UMap.mem_of_find? hr, List.mem_map.mpr ⟨(j, x), UMap.mem_of_find? he, rfl⟩⟩

omit [DecidableEq κ] [DecidableEq ι] in
theorem forEach_nodup : ∀ {m : MoM κ ι α}, Ok m → (m.forEach.map fun e => (e.1, e.2.1)).Nodup
  | [], _ => List.nodup_nil
  | (k, r) :: m, h => by
    have h' : Ok m := ⟨(List.nodup_cons.mp h.1).2, fun p hp => h.2 p (List.mem_cons_of_mem _ hp)⟩
    have hr := (h.2 (k, r) List.mem_cons_self).1
    unfold forEach
    rw [List.flatMap_cons, List.map_append, List.nodup_append]
    refine ⟨?_, forEach_nodup h', ?_⟩
    · rw [List.map_map]
      have : ((fun e : κ × ι × α => (e.1, e.2.1)) ∘ fun q : ι × α => (k, q.1, q.2)) = (fun j => (k, j)) ∘ Prod.fst := rfl
      rw [this, ← List.map_map]
      exact List.Nodup.map (fun a b e => by injection e) hr
    · rintro a ha b hb rfl
      rw [List.map_map] at ha
      obtain ⟨q, -, rfl⟩ := List.mem_map.mp ha
      obtain ⟨e, he, heq⟩ := List.mem_map.mp hb
      obtain ⟨p, hp, hm⟩ := List.mem_flatMap.mp he
      obtain ⟨q', -, rfl⟩ := List.mem_map.mp hm
      injection heq with e1 _
      dsimp only at e1
      exact (List.nodup_cons.mp h.1).1 (List.mem_map.mpr ⟨p, hp, e1⟩)

omit [DecidableEq κ] [DecidableEq ι] in
theorem size_eq (m : MoM κ ι α) : m.size = m.forEach.length := by
  have : ∀ (m : MoM κ ι α) t, m.foldl (fun t p => t + p.2.length) t = t + m.forEach.length := by
    intro m
    induction m with
    | nil => intro t; rfl
    | cons p m ih =>
      intro t
      rw [List.foldl_cons, ih]
      simp only [forEach, List.flatMap_cons, List.length_append, List.length_map]
      omega
  unfold size
  rw [this, Nat.zero_add]

theorem subsetOf_iff [DecidableEq α] {m x : MoM κ ι α} (hm : Ok m) :
    m.subsetOf x = true ↔ ∀ i j a, look m i j = some a → look x i j = some a := by
  unfold subsetOf
  rw [List.all_eq_true]
  constructor
  · intro h i j a e
    obtain ⟨r, hr, he⟩ := Option.bind_eq_some_iff.mp e
    have h1 := h _ (UMap.mem_of_find? hr)
    dsimp only at h1
    cases hx : UMap.find? i x with
    | none => rw [hx] at h1; cases h1
    | some s =>
      rw [hx] at h1
      dsimp only at h1
      have h2 := List.all_eq_true.mp h1 _ (UMap.mem_of_find? he)
      dsimp only at h2
      unfold look
      rw [hx, Option.bind_some]
      cases hs : UMap.find? j s with
      | none => rw [hs] at h2; cases h2
      | some y => rw [hs] at h2; simp at h2; rw [h2]
  · rintro h ⟨i, r⟩ hp
    have hr := UMap.find?_of_mem hm.1 hp
    have hl : ∀ j a, UMap.find? j r = some a → look m i j = some a := by
      intro j a e
      unfold look
      rw [hr, Option.bind_some, e]
    obtain ⟨ok, hne⟩ := hm.2 _ hp
    dsimp only at ok hne ⊢
    cases hx : UMap.find? i x with
    | none =>
      cases r with
      | nil => exact absurd rfl hne
      | cons q r =>
        have := h i q.1 q.2 (hl _ _ (by simp [UMap.find?]))
        unfold look at this
        rw [hx] at this
        cases this
    | some s =>
      dsimp only
      rw [List.all_eq_true]
      rintro ⟨j, a⟩ hq
      have := h i j a (hl _ _ (UMap.find?_of_mem ok hq))
      unfold look at this
      rw [hx, Option.bind_some] at this
      dsimp only
      rw [this]
      simp

end MoM

/-! ## Map of lists -/

namespace MoL

variable {κ α : Type _} [DecidableEq κ]

theorem find?_pushBack (m : MoL κ α) (k : κ) (x : α) (j : κ) :
    UMap.find? j (pushBack m k x) = if j = k then some ((UMap.find? k m).getD [] ++ [x]) else UMap.find? j m := by
  unfold pushBack
  cases h : UMap.find? k m with
  | none => dsimp only; rw [UMap.find?_set]; rfl
  | some l => dsimp only; rw [UMap.find?_set]; rfl

theorem ok_pushBack {m : MoL κ α} (h : UMap.Ok m) (k : κ) (x : α) : UMap.Ok (pushBack m k x) := by
  unfold pushBack
  cases UMap.find? k m <;> exact h.set _ _

/-- Up to order, one more pair is visited. -/
theorem forEach_set_perm {k : κ} {x : α} : ∀ {m : MoL κ α} {l : List α}, UMap.find? k m = some l →
    (forEach (UMap.set k (l ++ [x]) m)).Perm (forEach m ++ [(k, x)])
  | (k', v') :: m, l, h => by
    unfold UMap.find? at h
    unfold UMap.set
    split at h
    · rename_i e; subst e; injection h with h; subst h
      rw [if_pos rfl]
      simp only [forEach, List.flatMap_cons, List.map_append, List.map_cons, List.map_nil, List.append_assoc]
      exact List.Perm.append_left _ List.perm_append_comm
    · rename_i e
      rw [if_neg e]
      have := forEach_set_perm (x := x) h
      simp only [forEach, List.flatMap_cons] at this ⊢
      rw [List.append_assoc]
      exact List.Perm.append_left _ this

theorem forEach_new_perm {k : κ} {x : α} : ∀ {m : MoL κ α}, UMap.find? k m = none →
    (forEach (UMap.set k [x] m)).Perm (forEach m ++ [(k, x)])
  | [], _ => by simp [forEach, UMap.set]
  | (k', v') :: m, h => by
    unfold UMap.find? at h
    unfold UMap.set
    split at h
    · cases h
    · rename_i e
      rw [if_neg e]
      have := forEach_new_perm (x := x) h
      simp only [forEach, List.flatMap_cons] at this ⊢
      rw [List.append_assoc]
      exact List.Perm.append_left _ this

theorem forEach_pushBack (m : MoL κ α) (k : κ) (x : α) : (forEach (pushBack m k x)).Perm (forEach m ++ [(k, x)]) := by
  unfold pushBack
  cases h : UMap.find? k m with
  | none => exact forEach_new_perm h
  | some l => exact forEach_set_perm h

omit [DecidableEq κ] in
theorem total_eq (m : MoL κ α) : total m = (forEach m).length := by
  have : ∀ (m : MoL κ α) t, m.foldl (fun t p => t + p.2.length) t = t + (forEach m).length := by
    intro m
    induction m with
    | nil => intro t; rfl
    | cons p m ih =>
      intro t
      rw [List.foldl_cons, ih]
      simp only [forEach, List.flatMap_cons, List.length_append, List.length_map]
      omega
  unfold total
  rw [this, Nat.zero_add]

omit [DecidableEq κ] in
theorem maxSize_spec (m : MoL κ α) : (∀ p ∈ m, p.2.length ≤ maxSize m) ∧ (maxSize m = 0 ∨ ∃ p ∈ m, p.2.length = maxSize m) := by
  have : ∀ (m : MoL κ α) t, let r := m.foldl (fun t p => if p.2.length > t then p.2.length else t) t
      t ≤ r ∧ (∀ p ∈ m, p.2.length ≤ r) ∧ (r = t ∨ ∃ p ∈ m, p.2.length = r) := by
    intro m
    induction m with
    | nil => intro t; exact ⟨Nat.le_refl _, by simp, Or.inl rfl⟩
    | cons p m ih =>
      intro t
      obtain ⟨h1, h2, h3⟩ := ih (if p.2.length > t then p.2.length else t)
      dsimp only at h1 h2 h3 ⊢
      rw [List.foldl_cons]
      have h4 : t ≤ if p.2.length > t then p.2.length else t := by split <;> omega
      have h5 : p.2.length ≤ if p.2.length > t then p.2.length else t := by split <;> omega
      refine ⟨Nat.le_trans h4 h1, ?_, ?_⟩
      · intro q hq
        rcases List.mem_cons.mp hq with rfl | hq
        · exact Nat.le_trans h5 h1
        · exact h2 q hq
      · rcases h3 with h3 | ⟨q, hq, h3⟩
        · by_cases c : p.2.length > t
          · right
            rw [if_pos c] at h3 ⊢
            exact ⟨p, List.mem_cons_self, h3.symm⟩
          · left
            rw [if_neg c] at h3 ⊢
            exact h3
        · exact Or.inr ⟨q, List.mem_cons_of_mem _ hq, h3⟩
  obtain ⟨-, h2, h3⟩ := this m 0
  exact ⟨h2, h3⟩

end MoL

end Cnine
