import Verif.Lemmas.Pool2

/-! # Operations of `array_pool` keep the representation invariant -/

namespace Cnine

open PoolSpec

variable {α : Type _}

namespace Pool

/-- Row `i` changes, its room stays. -/
theorem part_upd {p p' : Pool α} {n : Nat} {rows : List (Row α)} (h : p.Part n rows) {i : Nat} {r r' : Row α}
    (hi : rows[i]? = some r) (hroom : r'.room = r.room) (hfit : r'.cells.length ≤ r'.room)
    (hdir : p'.dir.Fits n) (htail : p'.tail = p.tail) (hmem : p'.memsize = p.memsize)
    (harr : p'.arr.length = p.arr.length)
    (hd1 : p'.dir.arr[2 * i + 1]? = some (some (r'.cells.length : Int)))
    (hd : ∀ k, k ≠ 2 * i + 1 → p'.dir.arr[k]? = p.dir.arr[k]?)
    (hc : ∀ k, (k < off rows i ∨ off rows i + r.room ≤ k) → p'.arr[k]? = p.arr[k]?)
    (hnew : ∀ j v, r'.cells[j]? = some (some v) → p'.arr[off rows i + j]? = some (some v)) :
    p'.Part n (rows.set i r') := by
  have hil : i < rows.length := (List.getElem?_eq_some_iff.mp hi).1
  have ho := off_set hi hroom
  have cases' : ∀ k (s : Row α), (rows.set i r')[k]? = some s →
      (k = i ∧ s = r') ∨ (k ≠ i ∧ rows[k]? = some s) := by
    intro k s hs
    by_cases c : i = k
    · subst c
      rw [List.getElem?_set_self hil] at hs
      simp at hs
      exact Or.inl ⟨rfl, hs.symm⟩
    · rw [List.getElem?_set_ne c] at hs
      exact Or.inr ⟨fun e => c e.symm, hs⟩
  refine ⟨hdir, by simpa using h.le, ?_, ?_, ?_, ?_, ?_, ?_, ?_⟩
  · rw [htail, h.tail, ho, List.length_set]
  · rw [htail, hmem]; exact h.mem
  · rw [hmem, harr]; exact h.arr
  · intro s hs
    obtain ⟨k, hk⟩ := List.mem_iff_getElem?.mp hs
    rcases cases' k s hk with ⟨_, rfl⟩ | ⟨_, hk⟩
    · exact hfit
    · exact h.fit' hk
  · intro k s hs
    rw [ho]
    rcases cases' k s hs with ⟨rfl, rfl⟩ | ⟨hne, hk⟩
    · rw [hd _ (by omega)]; exact h.dir0 _ _ hi
    · rw [hd _ (by omega)]; exact h.dir0 _ _ hk
  · intro k s hs
    rcases cases' k s hs with ⟨rfl, rfl⟩ | ⟨hne, hk⟩
    · exact hd1
    · rw [hd _ (by omega)]; exact h.dir1 _ _ hk
  · intro k s j v hs hv
    rw [ho]
    rcases cases' k s hs with ⟨rfl, rfl⟩ | ⟨hne, hk⟩
    · exact hnew j v hv
    · have hj : j < s.cells.length := (List.getElem?_eq_some_iff.mp hv).1
      have hf := h.fit' hk
      have e1 := off_succ hk
      have e2 := off_succ hi
      have : off rows k + j < off rows i ∨ off rows i + r.room ≤ off rows k + j := by
        rcases Nat.lt_or_gt_of_ne hne with c | c
        · left
          have := off_mono (rows := rows) (show k + 1 ≤ i by omega)
          omega
        · right
          have := off_mono (rows := rows) (show i + 1 ≤ k by omega)
          omega
      rw [hc _ this]
      exact h.cells k s j v hk hv


theorem pushLen_ok {p : Pool α} {rows : List (Row α)} (h : p.Holds rows) (n : Nat) :
    ∃ p', p.pushLen n = .ok p' ∧ p'.Holds (rows ++ [⟨n, List.replicate n none⟩]) := by
  obtain ⟨p1, e1, e2, e3, e4, e5, e6⟩ := grow_ok h n
  obtain ⟨d, f1, f2, f3, f4, f5⟩ := Dir.pushBack_ok p.tail n h.dir
  have hm := h.mem
  refine ⟨{ p1 with dir := d, tail := p1.tail + n }, ?_, ?_⟩
  · unfold pushLen
    rw [e1, Res.ok_bind, e2, e3, f1]; rfl
  · unfold Holds
    rw [List.length_append, List.length_singleton]
    refine part_snoc h ⟨n, List.replicate n none⟩ f2 (Nat.le_refl _) (by simp [e3]) ?_ e5 (by simp) f3
      (by simpa using f4) f5 ?_ ?_
    · dsimp only; omega
    · intro k hk
      exact e6 k (by omega)
    · intro j v hv
      dsimp only at hv
      rw [List.getElem?_replicate] at hv
      split at hv <;> simp at hv

theorem wrList_new {a b : Arr α} {o : Nat} {v : List α}
    (h : ∀ k, b[k]? = if o ≤ k ∧ k < o + v.length then (v[k - o]?).map some else a[k]?) {j : Nat} {x : α}
    (hx : (v.map some)[j]? = some (some x)) : b[o + j]? = some (some x) := by
  have hj : j < v.length := by
    have := (List.getElem?_eq_some_iff.mp hx).1
    simpa using this
  rw [h, if_pos (by omega), Nat.add_sub_cancel_left]
  rw [List.getElem?_map] at hx
  exact hx

theorem pushVec_ok {p : Pool α} {rows : List (Row α)} (h : p.Holds rows) (v : List α) :
    ∃ p', p.pushVec v = .ok p' ∧ p'.Holds (rows ++ [Row.full v]) := by
  obtain ⟨p1, e1, e2, e3, e4, e5, e6⟩ := grow_ok h v.length
  obtain ⟨d, f1, f2, f3, f4, f5⟩ := Dir.pushBack_ok p.tail v.length h.dir
  have hm := h.mem
  have ht := h.tail
  obtain ⟨b, g1, g2, g3⟩ := Arr.wrList_ok v p1.arr (off rows rows.length) (by omega)
  rw [← ht] at g1
  refine ⟨{ p1 with arr := b, dir := d, tail := p1.tail + v.length }, ?_, ?_⟩
  · unfold pushVec
    rw [e1, Res.ok_bind, e3, g1, Res.ok_bind, e2, f1]; rfl
  · unfold Holds
    rw [List.length_append, List.length_singleton]
    refine part_snoc h (Row.full v) f2 (Nat.le_refl _) (by simp [e3, Row.full]) ?_ ?_ (by simp [Row.full]) f3
      (by simpa [Row.full] using f4) f5 ?_ ?_
    · dsimp only; omega
    · dsimp only; rw [g2]; exact e5
    · intro k hk
      dsimp only
      rw [g3, if_neg (by omega)]
      exact e6 k (by omega)
    · intro j x hx
      exact wrList_new g3 hx

theorem Part.size {p : Pool α} {n : Nat} {rows : List (Row α)} (h : p.Part n rows) : p.size = n := h.dir.1

theorem Part.off_at {p : Pool α} {n : Nat} {rows : List (Row α)} (h : p.Part n rows) {i : Nat} {r : Row α}
    (hi : rows[i]? = some r) : p.dir.at' i 0 = .ok (off rows i : Int) :=
  Dir.at_ok (j := 0) rfl (h.dir0 i r hi)

theorem Part.len_at {p : Pool α} {n : Nat} {rows : List (Row α)} (h : p.Part n rows) {i : Nat} {r : Row α}
    (hi : rows[i]? = some r) : p.dir.at' i 1 = .ok (r.cells.length : Int) :=
  Dir.at_ok (j := 1) rfl (h.dir1 i r hi)

theorem assrt_pos {c : Prop} [Decidable c] (h : c) : Res.assrt (decide c) = .ok () := by
  simp [Res.assrt, h]

theorem assrt_neg {c : Prop} [Decidable c] (h : ¬ c) : Res.assrt (decide c) = .throw := by
  simp [Res.assrt, h]

theorem lt_of_get {rows : List (Row α)} {i : Nat} {r : Row α} (hi : rows[i]? = some r) : i < rows.length :=
  (List.getElem?_eq_some_iff.mp hi).1

theorem set_ok {p : Pool α} {rows : List (Row α)} (h : p.Holds rows) {i j : Nat} {r : Row α}
    (hi : rows[i]? = some r) (hj : j < r.cells.length) (v : α) :
    ∃ p', p.set i j v = .ok p' ∧ p'.Holds (rows.set i { r with cells := r.cells.set j (some v) }) := by
  have hil := lt_of_get hi
  have hf := Part.fit' h hi
  have hb := Part.bound h hi (Nat.lt_of_lt_of_le hj hf)
  have h1 := h.mem
  have h2 := h.arr
  have ht := h.tail
  have hs := Part.size h
  refine ⟨{ p with arr := p.arr.set (off rows i + j) (some v) }, ?_, ?_⟩
  · unfold Pool.set
    rw [assrt_pos (by omega), Res.ok_bind, Part.len_at h hi, Res.ok_bind, assrt_pos (by omega), Res.ok_bind,
      Part.off_at h hi, Res.ok_bind, Arr.wr_ok' (k := off rows i + j) v (by omega) (by omega)]
    rfl
  · unfold Holds
    rw [List.length_set]
    refine part_upd h hi rfl (by simpa using hf) h.dir rfl rfl (by simp) (by simpa using h.dir1 i r hi)
      (fun _ _ => rfl) ?_ ?_
    · intro k hk
      dsimp only
      rw [List.getElem?_set_ne (by omega)]
    · intro k x hx
      dsimp only at hx ⊢
      rw [List.getElem?_set] at hx ⊢
      by_cases c : j = k
      · subst c
        rw [if_pos rfl, if_pos hj] at hx
        rw [if_pos rfl, if_pos (by omega)]
        exact hx
      · rw [if_neg c] at hx
        rw [if_neg (by omega)]
        exact h.cells i r k x hi hx

theorem sizeOf_ok {p : Pool α} {rows : List (Row α)} (h : p.Holds rows) {i : Nat} {r : Row α}
    (hi : rows[i]? = some r) : p.sizeOf i = .ok (r.cells.length : Int) := by
  have hil := lt_of_get hi
  have hs := Part.size h
  unfold Pool.sizeOf
  rw [assrt_pos (by omega), Res.ok_bind, Part.len_at h hi]

theorem maxSizeOf_ok {p : Pool α} {rows : List (Row α)} (h : p.Holds rows) {i : Nat} {r : Row α}
    (hi : rows[i]? = some r) : p.maxSizeOf i = .ok (r.room : Int) := by
  have hil := lt_of_get hi
  have hs := Part.size h
  have e := off_succ hi
  unfold Pool.maxSizeOf
  rw [assrt_pos (by omega), Res.ok_bind, hs]
  by_cases c : (i : Int) < (rows.length : Int) - 1
  · rw [if_pos c]
    have hr : rows[i + 1]? = some rows[i + 1] := List.getElem?_eq_getElem (by omega)
    have := Part.off_at h hr
    rw [show ((i + 1 : Nat) : Int) = (i : Int) + 1 by omega] at this
    rw [this, Res.ok_bind, Part.off_at h hi, Res.ok_bind]
    congr 1
    omega
  · rw [if_neg c, Part.off_at h hi, Res.ok_bind, h.tail]
    congr 1
    rw [show rows.length = i + 1 by omega]
    omega

theorem append_ok {p : Pool α} {rows : List (Row α)} (h : p.Holds rows) {i : Nat} {r : Row α}
    (hi : rows[i]? = some r) (hj : r.cells.length < r.room) (v : α) :
    ∃ p', p.append i v = .ok p' ∧ p'.Holds (rows.set i { r with cells := r.cells ++ [some v] }) := by
  have hil := lt_of_get hi
  have hb := Part.bound h hi hj
  have h1 := h.mem
  have h2 := h.arr
  have ht := h.tail
  have hs := Part.size h
  obtain ⟨d, f1, f2, f3, f4⟩ := Dir.set1_ok ((r.cells.length : Int) + 1) h.dir hil
  refine ⟨{ p with arr := p.arr.set (off rows i + r.cells.length) (some v), dir := d }, ?_, ?_⟩
  · unfold Pool.append
    rw [assrt_pos (by omega), Res.ok_bind, sizeOf_ok h hi, Res.ok_bind, maxSizeOf_ok h hi, Res.ok_bind,
      assrt_pos (by omega), Res.ok_bind, Part.off_at h hi, Res.ok_bind, Part.len_at h hi, Res.ok_bind,
      Arr.wr_ok' (k := off rows i + r.cells.length) v (by omega) (by omega), Res.ok_bind, f1]
    rfl
  · unfold Holds
    rw [List.length_set]
    refine part_upd h hi rfl (by simp; omega) f2 rfl rfl (by simp) (by simpa using f3) f4 ?_ ?_
    · intro k hk
      dsimp only
      rw [List.getElem?_set_ne (by omega)]
    · intro k x hx
      dsimp only at hx ⊢
      rw [List.getElem?_set]
      by_cases c : r.cells.length = k
      · subst c
        rw [if_pos rfl, if_pos (by omega)]
        simpa using hx
      · rw [if_neg (by omega)]
        have hk : k < r.cells.length := by
          have := (List.getElem?_eq_some_iff.mp hx).1
          simp at this; omega
        rw [List.getElem?_append_left hk] at hx
        exact h.cells i r k x hi hx

theorem copy_ok {p : Pool α} {rows : List (Row α)} (h : p.Holds rows) :
    ∃ p', p.copy = .ok p' ∧ p'.Holds rows := by
  have h1 := h.mem
  have h2 := h.arr
  have ht := h.tail
  obtain ⟨b, g1, g2, g3⟩ := Arr.copy_ok p.arr (Arr.alloc p.tail) p.tail.toNat 0 (by omega)
    (by rw [Arr.length_alloc]; omega)
  rw [Int.toNat_of_nonneg (by omega)] at g1
  have g1' : p.arr.copy p.tail (Arr.alloc p.tail) 0 = .ok b := g1
  obtain ⟨d, f1, f2, f3⟩ := Dir.copy_ok h.dir
  refine ⟨⟨b, p.tail, p.tail, d⟩, ?_, f2, h.le, ht, Int.le_refl _, ?_, h.fit, ?_, ?_, ?_⟩
  · unfold Pool.copy
    rw [g1', Res.ok_bind, f1]; rfl
  · dsimp only; rw [g2, Arr.length_alloc]; omega
  · intro k r hr
    have := lt_of_get hr
    dsimp only
    rw [f3 _ (by omega)]; exact h.dir0 k r hr
  · intro k r hr
    have := lt_of_get hr
    dsimp only
    rw [f3 _ (by omega)]; exact h.dir1 k r hr
  · intro k r j v hr hv
    have hb := Part.bound h hr (Nat.lt_of_lt_of_le (List.getElem?_eq_some_iff.mp hv).1 (Part.fit' h hr))
    dsimp only
    rw [g3, if_pos (by omega), Nat.sub_zero]
    exact h.cells k r j v hr hv

end Pool

end Cnine
