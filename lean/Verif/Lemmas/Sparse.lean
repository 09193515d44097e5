import Verif.Model.Sparse
import Verif.Lemmas.OMap
import Verif.Lemmas.Pool3
import Mathlib.Data.List.Flatten
import Mathlib.Data.List.Pairwise

/-! # Lemmas about the sparse matrices -/

namespace Cnine

namespace SpMat

variable {α : Type _}

/-- The value stored at (i,j). -/
def stored (x : SpMat α) (i j : Int) : Option α := (OMap.find? i x.lists).bind (OMap.find? j)

/-- Rows and columns are ordered and within the shape. -/
structure WF (x : SpMat α) : Prop where
  rows : OMap.Sorted x.lists
  cols : ∀ p ∈ x.lists, OMap.Sorted p.2
  rlt : ∀ p ∈ x.lists, p.1 < x.n
  clt : ∀ p ∈ x.lists, ∀ q ∈ p.2, q.1 < x.m

theorem wf_new (n m : Int) : (new n m : SpMat α).WF := by
  constructor <;> simp [new, OMap.sorted_nil]

theorem set_ok {x : SpMat α} (h : x.WF) {i j : Int} (hi : i < x.n) (hj : j < x.m) (v : α) :
    ∃ y, x.set i j v = .ok y ∧ y.WF ∧ y.n = x.n ∧ y.m = x.m ∧
      ∀ a b, y.stored a b = if a = i ∧ b = j then some v else x.stored a b := by
  have hr : OMap.Sorted ((OMap.find? i x.lists).getD []) ∧ ∀ q ∈ (OMap.find? i x.lists).getD [], q.1 < x.m := by
    cases hf : OMap.find? i x.lists with
    | none => simp [OMap.sorted_nil]
    | some r =>
      have := OMap.mem_of_find? hf
      exact ⟨h.cols _ this, h.clt _ this⟩
  refine ⟨{ x with lists := OMap.set i (OMap.set j v ((OMap.find? i x.lists).getD [])) x.lists }, ?_, ⟨?_, ?_, ?_, ?_⟩, rfl, rfl, ?_⟩
  · simp [SpMat.set, hi, hj]
  · exact h.rows.set _ _
  · intro p hp
    rcases OMap.mem_set_key hp with e | e
    · subst e; exact hr.1.set _ _
    · exact h.cols p e
  · intro p hp
    rcases OMap.mem_set_key hp with e | e
    · subst e; exact hi
    · exact h.rlt p e
  · intro p hp
    rcases OMap.mem_set_key hp with e | e
    · subst e
      intro q hq
      rcases OMap.mem_set_key hq with e | e
      · subst e; exact hj
      · exact hr.2 q e
    · exact h.clt p e
  · intro a b
    unfold stored
    dsimp only
    rw [OMap.find?_set]
    by_cases c : a = i
    · subst c
      rw [if_pos rfl, Option.bind_some, OMap.find?_set]
      by_cases d : b = j
      · rw [if_pos d, if_pos ⟨rfl, d⟩]
      · rw [if_neg d, if_neg (fun h => d h.2)]
        cases OMap.find? a x.lists <;> rfl
    · rw [if_neg c, if_neg (fun h => c h.1)]

theorem set_throw {x : SpMat α} {i j : Int} (h : ¬ (i < x.n ∧ j < x.m)) (v : α) : x.set i j v = .throw := by
  unfold SpMat.set
  by_cases c : i < x.n
  · have : ¬ j < x.m := fun d => h ⟨c, d⟩
    simp [c, this]
  · simp [c]

theorem row_ok {x : SpMat α} (h : x.WF) {i : Int} (hi : i < x.n) :
    ∃ y r, x.row i = .ok (y, r) ∧ y.WF ∧ y.n = x.n ∧ y.m = x.m ∧ (∀ a b, y.stored a b = x.stored a b) ∧
      ∀ j, OMap.find? j r = x.stored i j := by
  unfold SpMat.row
  cases hf : OMap.find? i x.lists with
  | some r =>
    refine ⟨x, r, by simp [hi], h, rfl, rfl, fun _ _ => rfl, ?_⟩
    intro j; unfold stored; rw [hf]; rfl
  | none =>
    refine ⟨{ x with lists := OMap.set i [] x.lists }, [], by simp [hi], ⟨?_, ?_, ?_, ?_⟩, rfl, rfl, ?_, ?_⟩
    · exact h.rows.set _ _
    · intro p hp
      rcases OMap.mem_set_key hp with e | e
      · subst e; exact OMap.sorted_nil
      · exact h.cols p e
    · intro p hp
      rcases OMap.mem_set_key hp with e | e
      · subst e; exact hi
      · exact h.rlt p e
    · intro p hp
      rcases OMap.mem_set_key hp with e | e
      · subst e; simp
      · exact h.clt p e
    · intro a b
      unfold stored
      dsimp only
      rw [OMap.find?_set]
      by_cases c : a = i
      · subst c; rw [if_pos rfl, hf]; rfl
      · rw [if_neg c]
    · intro j; unfold stored; rw [hf]; rfl

theorem mem_entries {x : SpMat α} (h : x.WF) {i j : Int} {v : α} : (i, j, v) ∈ x.entries ↔ x.stored i j = some v := by
  unfold entries stored
  rw [List.mem_flatMap]
  constructor
  · rintro ⟨p, hp, hq⟩
    obtain ⟨q, hq', e⟩ := List.mem_map.mp hq
    cases e
    rw [OMap.find?_of_mem h.rows hp]
    exact OMap.find?_of_mem (h.cols p hp) hq'
  · intro e
    obtain ⟨r, h1, h2⟩ := Option.bind_eq_some_iff.mp e
    exact ⟨(i, r), OMap.mem_of_find? h1, List.mem_map.mpr ⟨(j, v), OMap.mem_of_find? h2, rfl⟩⟩

/-- Lexicographic order of the positions. -/
def Before (a b : Int × Int × α) : Prop := a.1 < b.1 ∨ (a.1 = b.1 ∧ a.2.1 < b.2.1)

theorem entries_sorted {x : SpMat α} (h : x.WF) : x.entries.Pairwise Before := by
  unfold entries
  rw [List.pairwise_flatMap]
  constructor
  · intro p hp
    rw [List.pairwise_map]
    have := h.cols p hp
    unfold OMap.Sorted at this
    rw [List.pairwise_map] at this
    exact this.imp fun hab => Or.inr ⟨rfl, hab⟩
  · have := h.rows
    unfold OMap.Sorted at this
    rw [List.pairwise_map] at this
    refine this.imp ?_
    intro p q hpq a ha b hb
    obtain ⟨a', _, rfl⟩ := List.mem_map.mp ha
    obtain ⟨b', _, rfl⟩ := List.mem_map.mp hb
    exact Or.inl hpq

theorem Before.ne {a b : Int × Int × α} (h : Before a b) : (a.1, a.2.1) ≠ (b.1, b.2.1) := by
  intro e
  injection e with e1 e2
  rcases h with h | h <;> omega

theorem before_unique : ∀ {l l' : List (Int × Int × α)}, l.Pairwise Before → l'.Pairwise Before →
    (∀ e, e ∈ l ↔ e ∈ l') → l = l'
  | [], [], _, _, _ => rfl
  | [], b :: l', _, _, h => by have := (h b).mpr (by simp); simp at this
  | a :: l, [], _, _, h => by have := (h a).mp (by simp); simp at this
  | a :: l, b :: l', hl, hl', h => by
    have h1 := List.pairwise_cons.mp hl
    have h2 := List.pairwise_cons.mp hl'
    have e : a = b := by
      rcases List.mem_cons.mp ((h a).mp (by simp)) with e | e
      · exact e
      · rcases List.mem_cons.mp ((h b).mpr (by simp)) with e' | e'
        · exact e'.symm
        · have c1 := h2.1 a e
          have c2 := h1.1 b e'
          rcases c1 with c1 | c1 <;> rcases c2 with c2 | c2 <;> omega
    subst e
    congr 1
    refine before_unique h1.2 h2.2 fun e => ?_
    constructor
    · intro he
      rcases List.mem_cons.mp ((h e).mp (List.mem_cons_of_mem _ he)) with c | c
      · subst c; exact absurd rfl (h1.1 e he).ne
      · exact c
    · intro he
      rcases List.mem_cons.mp ((h e).mpr (List.mem_cons_of_mem _ he)) with c | c
      · subst c; exact absurd rfl (h2.1 e he).ne
      · exact c

/-- The last value given for (i,j) in a list of settings. -/
def lastOf : List (Int × Int × α) → Int → Int → Option α
  | [], _, _ => none
  | e :: l, i, j => (lastOf l i j).or (if i = e.1 ∧ j = e.2.1 then some e.2.2 else none)

theorem lastOf_cons (e : Int × Int × α) (l : List (Int × Int × α)) (i j : Int) :
    lastOf (e :: l) i j = (lastOf l i j).or (if i = e.1 ∧ j = e.2.1 then some e.2.2 else none) := rfl

theorem lastOf_mem : ∀ {l : List (Int × Int × α)} {i j : Int} {v : α}, lastOf l i j = some v → (i, j, v) ∈ l
  | e :: l, i, j, v, h => by
    rw [lastOf_cons] at h
    cases hl : lastOf l i j with
    | some w =>
      rw [hl] at h
      cases h
      exact List.mem_cons_of_mem _ (lastOf_mem hl)
    | none =>
      rw [hl, Option.none_or] at h
      split at h
      · rename_i c
        cases h
        obtain ⟨rfl, rfl⟩ := c
        exact List.mem_cons_self
      · cases h

theorem lastOf_none : ∀ {l : List (Int × Int × α)} {i j : Int}, lastOf l i j = none → ∀ v, (i, j, v) ∉ l
  | [], _, _, _, _ => by simp
  | e :: l, i, j, h, v => by
    rw [lastOf_cons] at h
    cases hl : lastOf l i j with
    | some w => rw [hl] at h; cases h
    | none =>
      rw [hl, Option.none_or] at h
      split at h
      · cases h
      · rename_i c
        intro hm
        rcases List.mem_cons.mp hm with e' | e'
        · exact c (by rw [← e']; exact ⟨rfl, rfl⟩)
        · exact lastOf_none hl v e'

/-- With distinct positions the last value is the only one. -/
theorem lastOf_iff {l : List (Int × Int × α)} (h : l.Pairwise fun a b => (a.1, a.2.1) ≠ (b.1, b.2.1)) {i j : Int} {v : α} :
    lastOf l i j = some v ↔ (i, j, v) ∈ l := by
  constructor
  · exact lastOf_mem
  · intro hm
    cases hl : lastOf l i j with
    | none => exact absurd hm (lastOf_none hl v)
    | some w =>
      have hw := lastOf_mem hl
      by_cases e : (i, j, w) = (i, j, v)
      · injection e with _ e; injection e with _ e; rw [e]
      · have : Std.Symm fun (a b : Int × Int × α) => (a.1, a.2.1) ≠ (b.1, b.2.1) := ⟨fun _ _ h => h.symm⟩
        have := List.Pairwise.forall h hw hm e
        exact absurd rfl this

theorem setAll_ok : ∀ (l : List (Int × Int × α)) {x : SpMat α}, x.WF → (∀ e ∈ l, e.1 < x.n ∧ e.2.1 < x.m) →
    ∃ y, setAll l x = .ok y ∧ y.WF ∧ y.n = x.n ∧ y.m = x.m ∧
      ∀ i j, y.stored i j = (lastOf l i j).or (x.stored i j)
  | [], x, h, _ => ⟨x, rfl, h, rfl, rfl, fun _ _ => rfl⟩
  | e :: l, x, h, hl => by
    have he := hl e (by simp)
    obtain ⟨y, h1, h2, h3, h4, h5⟩ := set_ok h he.1 he.2 e.2.2
    obtain ⟨z, g1, g2, g3, g4, g5⟩ := setAll_ok l h2 (fun e' he' => by
      rw [h3, h4]; exact hl e' (List.mem_cons_of_mem _ he'))
    refine ⟨z, ?_, g2, by rw [g3, h3], by rw [g4, h4], ?_⟩
    · unfold setAll; rw [h1]; exact g1
    · intro i j
      rw [g5, lastOf_cons]
      cases lastOf l i j with
      | some v => rfl
      | none =>
        simp only [Option.none_or]
        rw [h5]
        by_cases c : i = e.1 ∧ j = e.2.1
        · rw [if_pos c, if_pos c]; rfl
        · rw [if_neg c, if_neg c]; rfl

theorem setAll_throw : ∀ (l : List (Int × Int × α)) {x : SpMat α}, x.WF → ¬ (∀ e ∈ l, e.1 < x.n ∧ e.2.1 < x.m) →
    setAll l x = .throw
  | [], x, h, hl => absurd (by simp) hl
  | e :: l, x, h, hl => by
    by_cases c : e.1 < x.n ∧ e.2.1 < x.m
    · obtain ⟨y, h1, h2, h3, h4, h5⟩ := set_ok h c.1 c.2 e.2.2
      unfold setAll
      rw [h1, Res.ok_bind]
      refine setAll_throw l h2 fun hh => hl ?_
      intro e' he'
      rcases List.mem_cons.mp he' with e1 | e1
      · subst e1; exact c
      · have := hh e' e1
        rw [h3, h4] at this
        exact this
    · unfold setAll
      rw [set_throw c, Res.throw_bind]

theorem size_eq (x : SpMat α) : x.size = x.entries.length := by
  unfold size entries
  rw [List.length_flatMap]
  congr 1
  apply List.map_congr_left
  intro p _
  simp

/-- The stores reach the cells of the dense matrix. -/
theorem store_ok (n m : Nat) : ∀ (l : List (Int × Int × α)) (a : Arr α), a.length = n * m →
    (∀ e ∈ l, (0 ≤ e.1 ∧ e.1 < n) ∧ 0 ≤ e.2.1 ∧ e.2.1 < m) →
    ∃ b, store m l a = .ok b ∧ b.length = n * m ∧ ∀ i j : Nat, i < n → j < m →
      b[m * i + j]? = ((lastOf l i j).map some).or a[m * i + j]?
  | [], a, ha, _ => ⟨a, rfl, ha, fun _ _ _ _ => rfl⟩
  | e :: l, a, ha, hl => by
    have he := hl e (by simp)
    obtain ⟨p, hp⟩ := Int.eq_ofNat_of_zero_le he.1.1
    obtain ⟨q, hq⟩ := Int.eq_ofNat_of_zero_le he.2.1
    have hpn : p < n := by omega
    have hqm : q < m := by omega
    have hlt : m * p + q < a.length := by
      rw [ha]
      calc m * p + q < m * p + m := by omega
        _ = m * (p + 1) := by rw [Nat.mul_succ]
        _ ≤ m * n := Nat.mul_le_mul_left _ hpn
        _ = n * m := Nat.mul_comm _ _
    obtain ⟨b, h1, h2, h3⟩ := store_ok n m l (a.set (m * p + q) (some e.2.2)) (by simpa using ha)
      (fun e' he' => hl e' (List.mem_cons_of_mem _ he'))
    refine ⟨b, ?_, h2, ?_⟩
    · unfold store
      rw [Arr.wr_ok' (k := m * p + q) _ (by rw [hp, hq]; push_cast; rfl) hlt, Res.ok_bind]
      exact h1
    · intro i j hi hj
      rw [h3 i j hi hj, lastOf_cons]
      cases lastOf l i j with
      | some v => rfl
      | none =>
        simp only [Option.none_or, Option.map_none]
        rw [List.getElem?_set]
        by_cases c : (i : Int) = e.1 ∧ (j : Int) = e.2.1
        · have e1 : p = i := by omega
          have e2 : q = j := by omega
          subst e1 e2
          rw [if_pos c, if_pos rfl, if_pos hlt]; rfl
        · rw [if_neg c, Option.map_none, Option.none_or, if_neg]
          intro ee
          apply c
          have h5 : (m * p + q) / m = p := by
            rw [Nat.mul_add_div (by omega), Nat.div_eq_of_lt hqm, Nat.add_zero]
          have h6 : (m * i + j) / m = i := by
            rw [Nat.mul_add_div (by omega), Nat.div_eq_of_lt hj, Nat.add_zero]
          have h7 : p = i := by rw [← h5, ← h6, ee]
          subst h7
          omega

end SpMat

end Cnine
