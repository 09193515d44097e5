import Verif.Props.RView2

/-! # Matrix views: tree reduction and broadcasting by doubling -/

namespace Cnine

variable {α : Type _}

open RV2

/-! ## C140: `reduce0_destructively` -/

theorem dblUp_spec (n : Nat) : ∀ k a, n ≤ a * 2 ^ k → ∃ t, dblUp n k a = a * 2 ^ t ∧ n ≤ a * 2 ^ t ∧
    (t = 0 ∨ ∃ s, t = s + 1 ∧ a * 2 ^ s < n)
  | 0, a, h => ⟨0, by simp [dblUp], by simpa using h, Or.inl rfl⟩
  | k + 1, a, h => by
    rw [dblUp]
    by_cases c : a < n
    · rw [if_pos c]
      obtain ⟨t, h1, h2, h3⟩ := dblUp_spec n k (a * 2) (by rw [Nat.mul_assoc, ← Nat.pow_succ']; exact h)
      refine ⟨t + 1, ?_, ?_, Or.inr ⟨t, rfl, ?_⟩⟩
      · rw [h1, Nat.mul_assoc, ← Nat.pow_succ']
      · rw [Nat.mul_assoc, ← Nat.pow_succ'] at h2; exact h2
      · rcases h3 with rfl | ⟨s, rfl, h3⟩
        · simpa using c
        · rw [Nat.mul_assoc, ← Nat.pow_succ'] at h3; exact h3
    · rw [if_neg c]; exact ⟨0, by simp, by simpa using Nat.le_of_not_lt c, Or.inl rfl⟩

theorem lt_two_pow (n : Nat) : n < 2 ^ n := Nat.lt_two_pow_self

/-- One folding step: the first `c` of the rows `a, a+1, …` are added to the rows `0, 1, …`. -/
theorem fold_step [Add α] (p n1 a c : Nat) (hc : c ≤ a) (m : Buf α) (Y : Nat → Nat → α)
    (hY : ∀ i, i < a + c → ∀ j, j < n1 → m (p + (n1 * i + j)) = some (Y i j)) :
    ∃ m', stdAdd (· + ·) m (p + a * n1) (c * n1) p = .ok m' ∧
      (∀ i, i < a → ∀ j, j < n1 → m' (p + (n1 * i + j)) = some (if i < c then Y i j + Y (i + a) j else Y i j)) ∧
      ∀ d, (∀ i, i < a → ∀ j, j < n1 → d ≠ p + (n1 * i + j)) → m' d = m d := by
  obtain ⟨m', h1, h2, h3⟩ := stdAdd_ok (· + ·) m (p + a * n1) (c * n1) p (fun k => Y (k / n1) (k % n1))
    (fun k => Y (k / n1 + a) (k % n1))
    (by
      intro k hk
      have := hY _ (Nat.lt_of_lt_of_le (div_lt_of_flat hk) (by omega)) _ (mod_lt_of_flat hk)
      rwa [Nat.div_add_mod] at this)
    (by
      intro k hk
      have := hY (k / n1 + a) (by have := div_lt_of_flat hk; omega) _ (mod_lt_of_flat hk)
      rw [Nat.mul_add, Nat.add_right_comm, Nat.div_add_mod] at this
      rw [Nat.add_assoc, Nat.mul_comm a, Nat.add_comm (n1 * a)]; exact this)
    (by
      intro i hi j hj e
      exfalso
      have := Nat.mul_le_mul_right n1 hc
      omega)
  refine ⟨m', h1, ?_, ?_⟩
  · intro i hi j hj
    by_cases hic : i < c
    · rw [if_pos hic, h2 _ (flat_lt hic hj), flat_div hj, flat_mod hj]
    · rw [if_neg hic, h3, hY i (by omega) j hj]
      intro k hk e
      have h4 := Nat.mul_le_mul_left n1 (Nat.le_of_not_lt hic)
      rw [Nat.mul_comm] at hk
      omega
  · intro d hd
    apply h3
    intro k hk
    have := hd _ (Nat.lt_of_lt_of_le (div_lt_of_flat hk) hc) _ (mod_lt_of_flat hk)
    rwa [Nat.div_add_mod] at this

theorem sum_double [AddCommMonoid α] (a : Nat) (f : Nat → α) :
    ((List.range a).map fun i => f i + f (i + a)).sum = ((List.range (a + a)).map f).sum := by
  rw [List.range_add, List.map_append, List.sum_append, List.map_map, List.sum_map_add]
  congr 2
  apply List.map_congr_left
  intro i _
  simp [Nat.add_comm]

theorem halve_spec [AddCommMonoid α] (v : RV2) (hv : v.isRegular = true) : ∀ (t k : Nat), t ≤ k → ∀ (m : Buf α) (Y : Nat → Nat → α),
    (∀ i, i < 2 ^ t → ∀ j, j < v.n1 → m (v.arr + (v.n1 * i + j)) = some (Y i j)) →
    ∃ m', halve v k (2 ^ t / 2) m = .ok m' ∧
      (∀ j, j < v.n1 → m' (v.arr + j) = some (((List.range (2 ^ t)).map fun i => Y i j).sum)) ∧
      ∀ d, (∀ i, i < 2 ^ t → ∀ j, j < v.n1 → d ≠ v.arr + (v.n1 * i + j)) → m' d = m d := by
  intro t
  induction t with
  | zero =>
    intro k _ m Y hY
    refine ⟨m, ?_, ?_, fun _ _ => rfl⟩
    · cases k <;> simp [halve]
    · intro j hj
      have := hY 0 (by simp) j hj
      simpa using this
  | succ t ih =>
    intro k hk m Y hY
    cases k with
    | zero => omega
    | succ k =>
      have e : 2 ^ (t + 1) / 2 = 2 ^ t := by rw [Nat.pow_succ]; exact Nat.mul_div_cancel _ (by decide)
      have e2 : 2 ^ t + 2 ^ t = 2 ^ (t + 1) := by rw [Nat.pow_succ]; omega
      obtain ⟨m1, h1, h2, h3⟩ := fold_step v.arr v.n1 (2 ^ t) (2 ^ t) (Nat.le_refl _) m Y (by rw [e2]; exact hY)
      obtain ⟨m', g1, g2, g3⟩ := ih k (by omega) m1 (fun i j => Y i j + Y (i + 2 ^ t) j) (by
        intro i hi j hj
        rw [h2 i hi j hj, if_pos hi])
      refine ⟨m', ?_, ?_, ?_⟩
      · rw [e, halve, if_pos (Nat.two_pow_pos t), (RV2.isRegular_iff.1 hv).2, h1]
        exact g1
      · intro j hj
        rw [g2 j hj, sum_double (2 ^ t) (fun i => Y i j), e2]
      · intro d hd
        rw [g3 d fun i hi => hd i (by omega), h3 d fun i hi => hd i (by omega)]

/-- Regular views with at least two rows. -/
theorem reduce_regular [AddCommMonoid α] (v : RV2) (hv : v.isRegular = true) (hn : 2 ≤ v.n0) (m : Buf α)
    (Y : Nat → Nat → α) (hY : v.Has m Y) :
    ∃ m', v.reduce0 m = .ok m' ∧
      (∀ j, j < v.n1 → m' (v.cell 0 j) = some (((List.range v.n0).map fun i => Y i j).sum)) ∧
      ∀ d, (∀ i, i < v.n0 → ∀ j, j < v.n1 → d ≠ v.cell i j) → m' d = m d := by
  obtain ⟨t, h1, h2, h3⟩ := dblUp_spec v.n0 v.n0 1 (by rw [Nat.one_mul]; exact Nat.le_of_lt (lt_two_pow _))
  rw [Nat.one_mul] at h1 h2
  obtain ⟨s, rfl, h4⟩ : ∃ s, t = s + 1 ∧ 2 ^ s < v.n0 := by
    rcases h3 with rfl | ⟨s, hs, h3⟩
    · simp at h2; omega
    · exact ⟨s, hs, by rwa [Nat.one_mul] at h3⟩
  have e : 2 ^ (s + 1) / 2 = 2 ^ s := by rw [Nat.pow_succ]; exact Nat.mul_div_cancel _ (by decide)
  have e2 : 2 ^ s + 2 ^ s = 2 ^ (s + 1) := by rw [Nat.pow_succ]; omega
  have hs0 := (RV2.isRegular_iff.1 hv).2
  obtain ⟨m1, g1, g2, g3⟩ := fold_step v.arr v.n1 (2 ^ s) (v.n0 - 2 ^ s) (by omega) m Y (by
    intro i hi j hj
    have := hY i (by omega) j hj
    rwa [reg_cell hv] at this)
  have hk : s ≤ v.n0 := Nat.le_of_lt (Nat.lt_trans (lt_two_pow s) h4)
  obtain ⟨m', k1, k2, k3⟩ := halve_spec v hv s v.n0 hk m1 _ g2
  refine ⟨m', ?_, ?_, ?_⟩
  · unfold RV2.reduce0
    rw [if_pos hv, h1, e, hs0]
    simp only
    rw [← Nat.sub_mul, g1]
    exact k1
  · intro j hj
    rw [reg_cell hv, Nat.mul_zero, Nat.zero_add, k2 j hj]
    congr 1
    let Z : Nat → α := fun i => if i < v.n0 then Y i j else 0
    have z1 : ((List.range (2 ^ s)).map fun i => if i < v.n0 - 2 ^ s then Y i j + Y (i + 2 ^ s) j else Y i j) =
        (List.range (2 ^ s)).map fun i => Z i + Z (i + 2 ^ s) := by
      apply List.map_congr_left
      intro i hi
      have hi := List.mem_range.1 hi
      simp only [Z]
      rw [if_pos (show i < v.n0 by omega)]
      by_cases c : i < v.n0 - 2 ^ s
      · rw [if_pos c, if_pos (by omega)]
      · rw [if_neg c, if_neg (by omega), add_zero]
    rw [z1, sum_double (2 ^ s) Z, e2, show 2 ^ (s + 1) = v.n0 + (2 ^ (s + 1) - v.n0) by omega, List.range_add,
      List.map_append, List.sum_append, List.map_map]
    have z2 : (List.map (Z ∘ fun x => v.n0 + x) (List.range (2 ^ (s + 1) - v.n0))).sum = 0 := by
      apply List.sum_eq_zero
      intro y hy
      obtain ⟨i, _, rfl⟩ := List.mem_map.1 hy
      simp [Z]
    rw [z2, add_zero]
    congr 1
    apply List.map_congr_left
    intro i hi
    simp only [Z, if_pos (List.mem_range.1 hi)]
  · intro d hd
    have hd' : ∀ i, i < 2 ^ s → ∀ j, j < v.n1 → d ≠ v.arr + (v.n1 * i + j) := by
      intro i hi j hj
      have := hd i (by omega) j hj
      rwa [reg_cell hv] at this
    rw [k3 d hd', g3 d hd']

/-- Strided views: the column loop. -/
theorem reduce_strided [AddCommMonoid α] (v : RV2) (hv : v.isRegular = false) (hn : 1 ≤ v.n0) (hi : v.Inj) (m : Buf α)
    (Y : Nat → Nat → α) (hY : v.Has m Y) :
    ∃ m', v.reduce0 m = .ok m' ∧
      (∀ j, j < v.n1 → m' (v.cell 0 j) = some (((List.range v.n0).map fun i => Y i j).sum)) ∧
      ∀ d, (∀ j, j < v.n1 → d ≠ v.cell 0 j) → m' d = m d := by
  obtain ⟨m', h1, h2, h3⟩ := loop_cells v.n1 (v.cell 0) (fun j => ((List.range v.n0).map fun i => Y i j).sum)
    (fun j m => do
      let t ← sumLoop v.n0 (fun i => v.cell i j) m
      m.write (v.cell 0 j) t) m (fun i hi' j hj e => (hi 0 hn i hi' 0 hn j hj e).2)
    (fun j hj => by rw [hY 0 hn j hj]; rfl) (by
      intro j hj m' hm'
      rw [sumLoop_ok v.n0 _ m' (fun i => Y i j), Res.ok_bind]
      intro i hi'
      rw [hm' _ fun k hk hkj e => hkj (hi i hi' j hj 0 hn k hk e).2.symm]
      exact hY i hi' j hj)
  exact ⟨m', by simpa [RV2.reduce0, hv] using h1, h2, h3⟩

/-- `reduce0_destructively`: row 0 becomes the column sums and no cell outside the view changes.
Missing: regular views with one row and strided views with none, see below. -/
theorem C140_reduce0_partial [AddCommMonoid α] (v : RV2)
    (hn : v.isRegular = true ∧ 2 ≤ v.n0 ∨ v.isRegular = false ∧ 1 ≤ v.n0 ∧ v.Inj) (m : Buf α)
    (Y : Nat → Nat → α) (hY : v.Has m Y) :
    ∃ m', v.reduce0 m = .ok m' ∧
      (∀ j, j < v.n1 → m' (v.cell 0 j) = some (((List.range v.n0).map fun i => Y i j).sum)) ∧
      ∀ d, (∀ i, i < v.n0 → ∀ j, j < v.n1 → d ≠ v.cell i j) → m' d = m d := by
  rcases hn with ⟨hv, hn⟩ | ⟨hv, hn, hi⟩
  · exact reduce_regular v hv hn m Y hY
  · obtain ⟨m', h1, h2, h3⟩ := reduce_strided v hv hn hi m Y hY
    exact ⟨m', h1, h2, fun d hd => h3 d fun j hj => hd 0 hn j hj⟩

/-- A regular view with exactly one row: its entries are doubled, for every contents. -/
theorem C140_one_row_doubled [AddCommMonoid α] (v : RV2) (hv : v.isRegular = true) (hn : v.n0 = 1) (m : Buf α)
    (Y : Nat → Nat → α) (hY : v.Has m Y) :
    ∃ m', v.reduce0 m = .ok m' ∧ ∀ j, j < v.n1 → m' (v.cell 0 j) = some (Y 0 j + Y 0 j) := by
  have hY' := (reg_has hv m Y).1 hY
  rw [hn, Nat.one_mul] at hY'
  obtain ⟨m', h1, h2, _⟩ := stdAdd_ok (· + ·) m v.arr v.n1 v.arr (fun k => Y (k / v.n1) (k % v.n1))
    (fun k => Y (k / v.n1) (k % v.n1)) hY' hY' (by intros; omega)
  refine ⟨m', ?_, ?_⟩
  · simp [RV2.reduce0, hv, hn, (RV2.isRegular_iff.1 hv).2, dblUp, halve, h1]
  · intro j hj
    rw [reg_cell hv, Nat.mul_zero, Nat.zero_add, h2 j hj, Nat.div_eq_of_lt hj, Nat.mod_eq_of_lt hj]

theorem C140_reduce0_fails : ∃ (v : RV2) (m m' : Buf Int) (Y : Nat → Nat → Int), v.Inj ∧ v.Has m Y ∧
    v.reduce0 m = .ok m' ∧ m' (v.cell 0 0) ≠ some (((List.range v.n0).map fun i => Y i 0).sum) := by
  refine ⟨⟨0, 1, 2, 2, 1⟩, Buf.ofList [3, 4], _, fun _ j => [3, 4].getD j 0, reg_inj rfl, ?_, rfl, by decide⟩
  intro i hi j hj
  have : i < 1 := hi; have : j < 2 := hj
  interval_cases i; interval_cases j <;> rfl

/-- A strided view without rows: cells that are not in the view are set to zero. -/
theorem C140_no_rows_fails : ∃ (v : RV2) (m m' : Buf Int), v.n0 = 0 ∧ v.reduce0 m = .ok m' ∧ m' 0 ≠ m 0 := by
  exact ⟨⟨0, 0, 2, 1, 2⟩, Buf.ofList [3, 4, 5], _, rfl, rfl, by decide⟩

/-- `reduce0_destructively_into(r)` adds the column sums to `r`.  Missing: as above. -/
theorem C140_reduce0Into_partial [AddCommMonoid α] (v : RV2) (r : RV1)
    (hn : v.isRegular = true ∧ 2 ≤ v.n0 ∨ v.isRegular = false ∧ 1 ≤ v.n0 ∧ v.Inj) (hr : r.Inj) (hrn : r.n0 = v.n1)
    (ha : v.Apart1 r) (m : Buf α) (Y : Nat → Nat → α) (hY : v.Has m Y) (R : Nat → α) (hR : r.Has m R) :
    ∃ m', v.reduce0Into r m = .ok m' ∧
      r.Has m' (fun j => R j + ((List.range v.n0).map fun i => Y i j).sum) ∧
      ∀ d, (∀ j, j < r.n0 → d ≠ r.cell j) → (∀ i, i < v.n0 → ∀ j, j < v.n1 → d ≠ v.cell i j) → m' d = m d := by
  have hn0 : 0 < v.n0 := by rcases hn with h | h <;> omega
  obtain ⟨m1, h1, h2, h3⟩ := C140_reduce0_partial v hn m Y hY
  have hc : ∀ j, (v.slice0 0).cell j = v.cell 0 j := fun j => (C138_slices v 0 j).1
  obtain ⟨m', g1, g2, g3⟩ := C130_add r (v.slice0 0) hrn hr
    (fun i hi j hj e => absurd e (by rw [hc]; exact (ha 0 hn0 j hj i hi).symm)) m1 R
    (fun j => ((List.range v.n0).map fun i => Y i j).sum)
    (fun j hj => by rw [h3 _ fun i hi k hk => (ha i hi k hk j hj).symm]; exact hR j hj)
    (fun j hj => by rw [hc]; exact h2 j hj)
  refine ⟨m', ?_, g2, ?_⟩
  · simp [RV2.reduce0Into, hrn, h1, g1]
  · intro d hd hd'
    rw [g3 d hd, h3 d hd']

/-- `reduce1_destructively_into(r)` adds the row sums to `r`.  Missing: as above, for the transposed
view. -/
theorem C140_reduce1Into_partial [AddCommMonoid α] (v : RV2) (r : RV1)
    (hn : v.transp.isRegular = true ∧ 2 ≤ v.n1 ∨ v.transp.isRegular = false ∧ 1 ≤ v.n1 ∧ v.Inj) (hr : r.Inj)
    (hrn : r.n0 = v.n0) (ha : v.Apart1 r) (m : Buf α) (Y : Nat → Nat → α) (hY : v.Has m Y) (R : Nat → α)
    (hR : r.Has m R) :
    ∃ m', v.reduce1Into r m = .ok m' ∧
      r.Has m' (fun i => R i + ((List.range v.n1).map fun j => Y i j).sum) ∧
      ∀ d, (∀ j, j < r.n0 → d ≠ r.cell j) → (∀ i, i < v.n0 → ∀ j, j < v.n1 → d ≠ v.cell i j) → m' d = m d := by
  have hT : ∀ i j, v.transp.cell i j = v.cell j i := fun i j => (C138_transp v i j).1
  obtain ⟨m', h1, h2, h3⟩ := C140_reduce0Into_partial v.transp r
    (hn.imp id fun h => ⟨h.1, h.2.1, fun i hi j hj k hk l hl e => by
      rw [hT, hT] at e
      have := h.2.2 j hj i hi l hl k hk e
      exact ⟨this.2, this.1⟩⟩) hr hrn
    (fun i hi j hj k hk => by rw [hT]; exact ha j hj i hi k hk) m (fun i j => Y j i)
    (fun i hi j hj => by rw [hT]; exact hY j hj i hi) R hR
  refine ⟨m', ?_, h2, fun d hd hd' => h3 d hd fun i hi j hj => by rw [hT]; exact hd' j hj i hi⟩
  rw [← h1]
  rfl

example : ∃ m', (RV2.mk 0 5 1 1 1).reduce0 (Buf.ofList [1, 2, 3, 4, 5]) = .ok m' ∧ m' 0 = some (15 : Int) :=
  ⟨_, rfl, rfl⟩

/-! ## C141: `broadcast0`, `broadcast1` -/

theorem spread_spec (v : RV2) (hv : v.isRegular = true) (X : Nat → α) : ∀ (k a : Nat) (m : Buf α), 1 ≤ a → a ≤ v.n0 →
    v.n0 / 2 < a * 2 ^ k → (∀ i, i < v.n0 → ∀ j, j < v.n1 → (m (v.arr + (v.n1 * i + j))).isSome) →
    (∀ i, i < a → ∀ j, j < v.n1 → m (v.arr + (v.n1 * i + j)) = some (X j)) →
    ∃ m' b, spread v k a m = .ok (m', b) ∧ b ≤ v.n0 ∧ v.n0 < b + b ∧
      (∀ i, i < v.n0 → ∀ j, j < v.n1 → (m' (v.arr + (v.n1 * i + j))).isSome) ∧
      (∀ i, i < b → ∀ j, j < v.n1 → m' (v.arr + (v.n1 * i + j)) = some (X j)) ∧
      ∀ d, (∀ i, i < v.n0 → ∀ j, j < v.n1 → d ≠ v.arr + (v.n1 * i + j)) → m' d = m d := by
  intro k
  induction k with
  | zero =>
    intro a m h1 h2 h3 h4 h5
    exact ⟨m, a, rfl, h2, by omega, h4, h5, fun _ _ => rfl⟩
  | succ k ih =>
    intro a m h1 h2 h3 h4 h5
    rw [spread]
    by_cases c : a ≤ v.n0 / 2
    · rw [if_pos c]
      have hlen : a * v.n1 + a * v.n1 ≤ v.n0 * v.n1 := by
        rw [← Nat.add_mul]; exact Nat.mul_le_mul_right _ (by omega)
      obtain ⟨m1, g1, g2, g3⟩ := stdCopy_ok m v.arr (a * v.n1) (v.arr + a * v.n1) (fun q => X (q % v.n1))
        (by
          intro q hq
          have := h4 (q / v.n1 + a) (by have := div_lt_of_flat hq; omega) _ (mod_lt_of_flat hq)
          rw [Nat.mul_add, Nat.add_right_comm, Nat.div_add_mod, Nat.mul_comm v.n1 a, Nat.add_comm q] at this
          rw [Nat.add_assoc]; exact this)
        (by
          intro q hq
          have := h5 _ (div_lt_of_flat hq) _ (mod_lt_of_flat hq)
          rwa [Nat.div_add_mod] at this)
        (by intro i hi j hj; omega)
      have new : ∀ i, i < a * 2 → ∀ j, j < v.n1 → m1 (v.arr + (v.n1 * i + j)) = some (X j) := by
        intro i hi j hj
        by_cases hia : i < a
        · rw [g3, h5 i hia j hj]
          intro q hq
          have := flat_lt hia hj
          omega
        · have := g2 (v.n1 * (i - a) + j) (flat_lt (by omega) hj)
          rw [flat_mod hj] at this
          rw [← this]
          congr 1
          have e : v.n1 * i = v.n1 * (i - a) + v.n1 * a := by rw [← Nat.mul_add]; congr 1; omega
          rw [e, Nat.mul_comm a]; omega
      have frame : ∀ d, (∀ i, i < v.n0 → ∀ j, j < v.n1 → d ≠ v.arr + (v.n1 * i + j)) → m1 d = m d := by
        intro d hd
        apply g3
        intro q hq
        have := hd (q / v.n1 + a) (by have := div_lt_of_flat hq; omega) _ (mod_lt_of_flat hq)
        rw [Nat.mul_add, Nat.add_right_comm, Nat.div_add_mod, Nat.mul_comm v.n1 a, Nat.add_comm q] at this
        rw [Nat.add_assoc]; exact this
      obtain ⟨m', b, k1, k2, k3, k4, k5, k6⟩ := ih (a * 2) m1 (by omega) (by omega)
        (by rw [Nat.mul_assoc, ← Nat.pow_succ']; exact h3)
        (by
          intro i hi j hj
          by_cases hia : i < a * 2
          · rw [new i hia j hj]; rfl
          · rw [g3]
            · exact h4 i hi j hj
            · intro q hq
              have := Nat.mul_le_mul_left v.n1 (Nat.le_of_not_lt hia)
              rw [Nat.mul_comm a] at hq ⊢
              have e : v.n1 * (a * 2) = v.n1 * a + v.n1 * a := by ring
              omega) new
      refine ⟨m', b, ?_, k2, k3, k4, k5, ?_⟩
      · rw [g1]; exact k1
      · intro d hd; rw [k6 d hd, frame d hd]
    · rw [if_neg c]
      exact ⟨m, a, rfl, h2, by omega, h4, h5, fun _ _ => rfl⟩

/-- Writing one value down a column, for all columns. -/
theorem columns_run (r : RV2) (x : RV1) (hn : x.n0 = r.n1) (hr : r.Inj) (hx : r.Apart1 x) (m : Buf α)
    (X : Nat → α) (hX : x.Has m X) (new : Nat → Nat → α)
    (body : Nat → Nat → α → Buf α → Res (Buf α)) (R : Nat → Nat → α) (hR : r.Has m R)
    (hb : ∀ i, i < r.n0 → ∀ j, j < r.n1 → ∀ m : Buf α, m (r.cell i j) = some (R i j) →
      body i j (X j) m = m.write (r.cell i j) (new i j)) :
    ∃ m', loop r.n1 m (fun j m => do
        let t ← m.read (x.cell j)
        loop r.n0 m fun i m => body i j t m) = .ok m' ∧ r.Becomes m m' new := by
  obtain ⟨m', h1, h2, h3⟩ := forM_regions (List.range r.n1) (fun m j => do
        let t ← m.read (x.cell j)
        loop r.n0 m fun i m => body i j t m) (fun j c => ∃ i, i < r.n0 ∧ c = r.cell i j)
    (fun j c => ((List.range r.n0).find? fun i => decide (c = r.cell i j)).map fun i => new i j) m List.nodup_range
    (by
      rintro j hj k hk hjk c ⟨i, hi, rfl⟩ ⟨l, hl, e⟩
      exact hjk (hr i hi j (List.mem_range.1 hj) l hl k (List.mem_range.1 hk) e).2)
    (by
      intro j hj m1 hm1
      have hj := List.mem_range.1 hj
      have ex : m1 (x.cell j) = some (X j) := by
        rw [hm1 _ ?_]
        · exact hX j (hn ▸ hj)
        · rintro k hk _ ⟨i, hi, e⟩
          exact hx i hi k (List.mem_range.1 hk) j (hn ▸ hj) e.symm
      have er : ∀ i, i < r.n0 → m1 (r.cell i j) = some (R i j) := by
        intro i hi
        rw [hm1 _ ?_]
        · exact hR i hi j hj
        · rintro k hk hkj ⟨l, hl, e⟩
          exact hkj (hr i hi j hj l hl k (List.mem_range.1 hk) e).2.symm
      obtain ⟨m', h1, h2, h3⟩ := loop_cells r.n0 (fun i => r.cell i j) (fun i => new i j) (fun i m => body i j (X j) m) m1
        (fun i hi k hk e => (hr i hi j hj k hk j hj e).1) (fun i hi => by rw [er i hi]; rfl) (by
          intro i hi m2 hm2
          apply hb i hi j hj
          rw [hm2 _ fun k hk hki e => hki (hr k hk j hj i hi j hj e.symm).1]; exact er i hi)
      refine ⟨m', ?_, ?_, ?_⟩
      · rw [read_ok ex, Res.ok_bind]; exact h1
      · rintro c ⟨i, hi, rfl⟩
        rw [h2 i hi]
        have : (List.range r.n0).find? (fun l => decide (r.cell i j = r.cell l j)) = some i := by
          have hs : ((List.range r.n0).find? (fun l => decide (r.cell i j = r.cell l j))).isSome := by
            rw [List.find?_isSome]; exact ⟨i, List.mem_range.2 hi, by simp⟩
          obtain ⟨l, hl⟩ := Option.isSome_iff_exists.1 hs
          have h5 := List.find?_some hl
          have h6 := List.mem_of_find?_eq_some hl
          rw [hl, (hr i hi j hj l (List.mem_range.1 h6) j hj (of_decide_eq_true h5)).1]
        rw [this]; rfl
      · intro c hc
        exact h3 c fun i hi e => hc ⟨i, hi, e⟩)
  refine ⟨m', h1, ?_, ?_⟩
  · intro i hi j hj
    rw [h2 j (List.mem_range.2 hj) _ ⟨i, hi, rfl⟩]
    have : (List.range r.n0).find? (fun l => decide (r.cell i j = r.cell l j)) = some i := by
      have hs : ((List.range r.n0).find? (fun l => decide (r.cell i j = r.cell l j))).isSome := by
        rw [List.find?_isSome]; exact ⟨i, List.mem_range.2 hi, by simp⟩
      obtain ⟨l, hl⟩ := Option.isSome_iff_exists.1 hs
      have h5 := List.find?_some hl
      have h6 := List.mem_of_find?_eq_some hl
      rw [hl, (hr i hi j hj l (List.mem_range.1 h6) j hj (of_decide_eq_true h5)).1]
    rw [this]; rfl
  · intro c hc
    apply h3
    rintro j hj ⟨i, hi, e⟩
    exact hc i hi j (List.mem_range.1 hj) e

/-- `broadcast0(x)`: every row becomes `x`.  Missing: regular views without rows, see
`C141_broadcast0_fails`. -/
theorem C141_broadcast0_partial (v : RV2) (x : RV1) (hn : x.n0 = v.n1)
    (h0 : 1 ≤ v.n0 ∨ v.isRegular = false ∨ x.isRegular = false) (hi : v.Inj)
    (hx : v.Apart1 x) (m : Buf α) (R : Nat → Nat → α) (X : Nat → α) (hR : v.Has m R) (hX : x.Has m X) :
    ∃ m', v.broadcast0 x m = .ok m' ∧ v.Becomes m m' fun _ j => X j := by
  unfold RV2.broadcast0
  simp only [hn, decide_true, Res.assrt, if_true, Res.ok_bind, Bool.and_eq_true]
  by_cases h : v.isRegular = true ∧ x.isRegular = true
  · rw [if_pos h]
    have h0 : 1 ≤ v.n0 := by
      rcases h0 with h0 | h0 | h0
      · exact h0
      · rw [h.1] at h0; cases h0
      · rw [h.2] at h0; cases h0
    have hs : x.s0 = 1 := by simpa [RV1.isRegular] using h.2
    have hxc : ∀ j, x.cell j = x.arr + j := by intro j; simp [RV1.cell, hs]
    have hal : ∀ i, i < v.n0 → ∀ j, j < v.n1 → (m (v.arr + (v.n1 * i + j))).isSome := by
      intro i hi j hj
      have := hR i hi j hj
      rw [reg_cell h.1] at this
      rw [this]; rfl
    obtain ⟨m1, g1, g2, g3⟩ := stdCopy_ok m x.arr v.n1 v.arr X
      (fun j hj => by simpa using hal 0 h0 j hj)
      (fun j hj => by rw [← hxc]; exact hX j (hn ▸ hj))
      (fun i hi j hj e => hx 0 h0 i hi j (hn ▸ hj) (by rw [reg_cell h.1, hxc]; simpa using e))
    have hal1 : ∀ i, i < v.n0 → ∀ j, j < v.n1 → (m1 (v.arr + (v.n1 * i + j))).isSome := by
      intro i hi j hj
      by_cases hi0 : i = 0
      · subst hi0; rw [Nat.mul_zero, Nat.zero_add, g2 j hj]; rfl
      · rw [g3]
        · exact hal i hi j hj
        · intro k hk
          have : v.n1 * 1 ≤ v.n1 * i := Nat.mul_le_mul_left _ (by omega)
          omega
    obtain ⟨m2, b, k1, k2, k3, k4, k5, k6⟩ := spread_spec v h.1 X v.n0 1 m1 (Nat.le_refl _) h0
      (by have := lt_two_pow v.n0; omega) hal1
      (by intro i hi j hj; obtain rfl : i = 0 := by omega
          rw [Nat.mul_zero, Nat.zero_add]; exact g2 j hj)
    rw [g1]
    simp only [Res.ok_bind, k1]
    have fr1 : ∀ d, (∀ i, i < v.n0 → ∀ j, j < v.n1 → d ≠ v.arr + (v.n1 * i + j)) → m2 d = m d := by
      intro d hd
      rw [k6 d hd, g3 d fun j hj => by have := hd 0 h0 j hj; simpa using this]
    have hB : ∀ m' : Buf α, (∀ i, i < v.n0 → ∀ j, j < v.n1 → m' (v.arr + (v.n1 * i + j)) = some (X j)) →
        (∀ d, (∀ i, i < v.n0 → ∀ j, j < v.n1 → d ≠ v.arr + (v.n1 * i + j)) → m' d = m d) →
        v.Becomes m m' fun _ j => X j := by
      intro m' q1 q2
      refine ⟨fun i hi j hj => by rw [reg_cell h.1]; exact q1 i hi j hj, fun c hc => q2 c fun i hi j hj => ?_⟩
      rw [← reg_cell h.1]; exact hc i hi j hj
    by_cases hb : b < v.n0
    · rw [if_pos hb]
      obtain ⟨m3, p1, p2, p3⟩ := stdCopy_ok m2 v.arr ((v.n0 - b) * v.n1) (v.arr + b * v.n1) (fun q => X (q % v.n1))
        (by
          intro q hq
          have := k4 (q / v.n1 + b) (by have := div_lt_of_flat hq; omega) _ (mod_lt_of_flat hq)
          rw [Nat.mul_add, Nat.add_right_comm, Nat.div_add_mod, Nat.mul_comm v.n1 b, Nat.add_comm q] at this
          rw [Nat.add_assoc]; exact this)
        (by
          intro q hq
          have := k5 _ (Nat.lt_of_lt_of_le (div_lt_of_flat hq) (by omega)) _ (mod_lt_of_flat hq)
          rwa [Nat.div_add_mod] at this)
        (by
          intro i hi j hj
          have : (v.n0 - b) * v.n1 ≤ b * v.n1 := Nat.mul_le_mul_right _ (by omega)
          omega)
      refine ⟨m3, p1, hB m3 ?_ ?_⟩
      · intro i hi j hj
        by_cases hib : i < b
        · rw [p3, k5 i hib j hj]
          intro q hq
          have := flat_lt hib hj
          omega
        · have := p2 (v.n1 * (i - b) + j) (flat_lt (by omega) hj)
          rw [flat_mod hj] at this
          rw [← this]
          congr 1
          have e : v.n1 * i = v.n1 * (i - b) + v.n1 * b := by rw [← Nat.mul_add]; congr 1; omega
          rw [e, Nat.mul_comm b]; omega
      · intro d hd
        rw [p3, fr1 d hd]
        intro q hq
        have := hd (q / v.n1 + b) (by have := div_lt_of_flat hq; omega) _ (mod_lt_of_flat hq)
        rw [Nat.mul_add, Nat.add_right_comm, Nat.div_add_mod, Nat.mul_comm v.n1 b, Nat.add_comm q] at this
        rw [Nat.add_assoc]; exact this
    · rw [if_neg hb]
      exact ⟨m2, rfl, hB m2 (fun i hi j hj => k5 i (by omega) j hj) fr1⟩
  · rw [if_neg h]
    exact columns_run v x hn hi hx m X hX (fun _ j => X j) (fun i j t m => m.write (v.cell i j) t) R hR
      (fun _ _ _ _ _ _ => rfl)

/-- A regular view without rows still receives a row: cells outside the view are overwritten. -/
theorem C141_broadcast0_fails : ∃ (v : RV2) (x : RV1) (m m' : Buf Int), v.n0 = 0 ∧ x.n0 = v.n1 ∧
    v.broadcast0 x m = .ok m' ∧ m' 0 ≠ m 0 :=
  ⟨⟨0, 0, 2, 2, 1⟩, ⟨4, 2, 1⟩, Buf.ofList [1, 2, 3, 4, 5, 6], _, rfl, rfl, rfl, by decide⟩

/-- `broadcast1(x)`: column by column, entry `(i,j)` becomes `x_i`. -/
theorem C141_broadcast1 (v : RV2) (x : RV1) (hn : x.n0 = v.n0) (hi : v.Inj)
    (hx : v.Apart1 x) (m : Buf α) (R : Nat → Nat → α) (X : Nat → α) (hR : v.Has m R) (hX : x.Has m X) :
    ∃ m', v.broadcast1 x m = .ok m' ∧ v.Becomes m m' fun i _ => X i := by
  have hT : ∀ i j, v.transp.cell i j = v.cell j i := fun i j => (C138_transp v i j).1
  obtain ⟨m', h1, h2, h3⟩ := columns_run v.transp x hn
    (fun i hi' j hj k hk l hl e => by
      rw [hT, hT] at e
      have := hi j hj i hi' l hl k hk e
      exact ⟨this.2, this.1⟩)
    (fun i hi j hj k hk => by rw [hT]; exact hx j hj i hi k hk) m X hX (fun _ j => X j)
    (fun i j t m => m.write (v.transp.cell i j) t) (fun i j => R j i)
    (fun i hi j hj => by rw [hT]; exact hR j hj i hi) (fun _ _ _ _ _ _ => rfl)
  refine ⟨m', ?_, ?_, ?_⟩
  · simp only [hT] at h1
    simpa [RV2.broadcast1, hn, RV2.transp] using h1
  · intro i hi j hj
    have := h2 j hj i hi
    rwa [hT] at this
  · intro c hc
    exact h3 c fun i hi j hj => by rw [hT]; exact hc j hj i hi

example : ∃ m', (RV2.mk 0 3 2 2 1).broadcast0 ⟨6, 2, 1⟩ (Buf.ofList [0, 0, 0, 0, 0, 0, 7, 8]) = .ok m' ∧
    m' 4 = some (7 : Int) ∧ m' 5 = some 8 ∧ m' 1 = some 8 := ⟨_, rfl, rfl, rfl, rfl⟩

/-! ## C142: `add_broadcast0(x,alpha)` -/

/-- What the code does for every `alpha`: `x` itself is added to every row. -/
theorem C142_addBroadcast0_adds [Add α] (v : RV2) (x : RV1) (alpha : α) (hn : x.n0 = v.n1) (hi : v.Inj)
    (hx : v.Apart1 x) (m : Buf α) (R : Nat → Nat → α) (X : Nat → α) (hR : v.Has m R) (hX : x.Has m X) :
    ∃ m', v.addBroadcast0 x alpha m = .ok m' ∧ v.Becomes m m' fun i j => R i j + X j := by
  unfold RV2.addBroadcast0
  simp only [hn, decide_true, Res.assrt, if_true, Res.ok_bind]
  by_cases h : x.s0 = 1 ∧ v.s1 = 1
  · rw [if_pos h]
    have hvc : ∀ i j, v.cell i j = v.arr + i * v.s0 + j := by
      intro i j; simp [RV2.cell, h.2, Nat.mul_comm, Nat.add_assoc]
    have hxc : ∀ j, x.cell j = x.arr + j := by intro j; simp [RV1.cell, h.1]
    obtain ⟨m', g1, g2⟩ := loop2_cells v.n0 v.n1 v.cell (fun i j => R i j + X j)
      (fun i j m => updCell (· + ·) m (v.arr + i * v.s0 + j) (x.arr + j)) m hi
      (fun i hi j hj => by rw [hR i hi j hj]; rfl) (by
        intro i hi' j hj m' hm'
        rw [← hvc]
        apply updCell_ok
        · rw [hm' _ fun k hk l hl hkl e => hkl (hi k hk l hl i hi' j hj e.symm)]; exact hR i hi' j hj
        · rw [← hxc, hm' _ fun k hk l hl _ e => hx k hk l hl j (hn ▸ hj) e.symm]; exact hX j (hn ▸ hj))
    exact ⟨m', g1, g2⟩
  · rw [if_neg h]
    exact columns_run v x hn hi hx m X hX (fun i j => R i j + X j) (fun i j t m => incCell m (v.cell i j) t) R hR
      (fun i hi j hj m e => incCell_ok e _)

/-- Missing: `alpha` other than one, see `C142_addBroadcast0_fails`. -/
theorem C142_addBroadcast0_partial [NonAssocSemiring α] (v : RV2) (x : RV1) (hn : x.n0 = v.n1) (hi : v.Inj)
    (hx : v.Apart1 x) (m : Buf α) (R : Nat → Nat → α) (X : Nat → α) (hR : v.Has m R) (hX : x.Has m X) :
    ∃ m', v.addBroadcast0 x 1 m = .ok m' ∧ v.Becomes m m' fun i j => R i j + 1 * X j := by
  simp only [one_mul]
  exact C142_addBroadcast0_adds v x 1 hn hi hx m R X hR hX

/-- With `alpha=0` nothing should change, but the vector is added. -/
theorem C142_addBroadcast0_fails : ∃ (v : RV2) (x : RV1) (m m' : Buf Int) (R : Nat → Nat → Int) (X : Nat → Int),
    x.n0 = v.n1 ∧ v.Inj ∧ v.Apart1 x ∧ v.Has m R ∧ x.Has m X ∧ v.addBroadcast0 x 0 m = .ok m' ∧
    m' (v.cell 0 0) ≠ some (R 0 0 + 0 * X 0) := by
  refine ⟨⟨0, 1, 1, 1, 1⟩, ⟨1, 1, 1⟩, Buf.ofList [5, 7], _, fun _ _ => 5, fun _ => 7, rfl, reg_inj rfl, ?_, ?_, ?_, rfl, ?_⟩
  · intro i hi j hj k hk; simp [RV2.cell, RV1.cell] at *; omega
  · intro i hi j hj; have : i < 1 := hi; have : j < 1 := hj; interval_cases i; interval_cases j; rfl
  · intro i hi; have : i < 1 := hi; interval_cases i; rfl
  · decide

end Cnine
