import Verif.Props.RView

/-! # Matrix views: element-wise operations, products, sums, views of views -/

namespace Cnine

variable {α : Type _}

namespace RV2

theorem cell_comm (v : RV2) (i j : Nat) : v.arr + (i * v.s0 + j * v.s1) = v.cell i j := by
  rw [cell, Nat.mul_comm i, Nat.mul_comm j]

theorem flat_lt {n0 n1 i j : Nat} (hi : i < n0) (hj : j < n1) : n1 * i + j < n0 * n1 := by
  have h1 : n1 * i + n1 ≤ n1 * n0 := by
    have := Nat.mul_le_mul_left n1 (Nat.succ_le_of_lt hi)
    rwa [Nat.mul_succ] at this
  rw [Nat.mul_comm n0]
  omega

theorem flat_div {n1 i j : Nat} (hj : j < n1) : (n1 * i + j) / n1 = i := by
  rw [Nat.mul_add_div (by omega), Nat.div_eq_of_lt hj, Nat.add_zero]

theorem flat_mod {n1 i j : Nat} (hj : j < n1) : (n1 * i + j) % n1 = j := by
  rw [Nat.mul_add_mod, Nat.mod_eq_of_lt hj]

theorem div_lt_of_flat {n0 n1 k : Nat} (hk : k < n0 * n1) : k / n1 < n0 :=
  Nat.div_lt_of_lt_mul (by rwa [Nat.mul_comm] at hk)

theorem mod_lt_of_flat {n0 n1 k : Nat} (hk : k < n0 * n1) : k % n1 < n1 :=
  Nat.mod_lt _ (by rcases Nat.eq_zero_or_pos n1 with h | h; · subst h; simp at hk
                   · exact h)

theorem isRegular_iff {v : RV2} : v.isRegular = true ↔ v.s1 = 1 ∧ v.s0 = v.n1 := by
  simp [isRegular]

theorem isTranspose_iff {v : RV2} : v.isTranspose = true ↔ v.s1 = v.n0 ∧ v.s0 = 1 := by
  simp [isTranspose]

theorem reg_cell {v : RV2} (h : v.isRegular = true) (i j : Nat) : v.cell i j = v.arr + (v.n1 * i + j) := by
  obtain ⟨h1, h2⟩ := isRegular_iff.1 h
  simp [cell, h1, h2]

theorem reg_inj {v : RV2} (h : v.isRegular = true) : v.Inj := by
  intro i hi j hj k hk l hl e
  rw [reg_cell h, reg_cell h] at e
  have e : v.n1 * i + j = v.n1 * k + l := by omega
  exact ⟨by rw [← flat_div (i := i) hj, e, flat_div hl], by rw [← flat_mod (i := i) hj, e, flat_mod hl]⟩

/-- A regular view as one flat stretch of memory. -/
theorem reg_has {v : RV2} (h : v.isRegular = true) (m : Buf α) (X : Nat → Nat → α) :
    v.Has m X ↔ ∀ k, k < v.n0 * v.n1 → m (v.arr + k) = some (X (k / v.n1) (k % v.n1)) := by
  constructor
  · intro hX k hk
    have := hX _ (div_lt_of_flat hk) _ (mod_lt_of_flat hk)
    rwa [reg_cell h, Nat.div_add_mod] at this
  · intro hX i hi j hj
    have := hX _ (flat_lt hi hj)
    rwa [flat_div hj, flat_mod hj, ← reg_cell h] at this

theorem reg_frame {v : RV2} (h : v.isRegular = true) (m m' : Buf α) :
    (∀ c, (∀ i, i < v.n0 → ∀ j, j < v.n1 → c ≠ v.cell i j) → m' c = m c) ↔
    ∀ c, (∀ k, k < v.n0 * v.n1 → c ≠ v.arr + k) → m' c = m c := by
  constructor
  · intro H c hc
    exact H c fun i hi j hj => by rw [reg_cell h]; exact hc _ (flat_lt hi hj)
  · intro H c hc
    refine H c fun k hk => ?_
    have := hc _ (div_lt_of_flat hk) _ (mod_lt_of_flat hk)
    rwa [reg_cell h, Nat.div_add_mod] at this

theorem reg_compat {r x : RV2} (hr : r.isRegular = true) (hx : x.isRegular = true) (h1 : r.n1 = x.n1)
    (h0 : r.n0 = x.n0) (hc : r.Compat x) :
    ∀ k, k < r.n0 * r.n1 → ∀ l, l < r.n0 * r.n1 → r.arr + k = x.arr + l → k = l := by
  intro k hk l hl e
  have hl' : l < x.n0 * x.n1 := by rw [← h1, ← h0]; exact hl
  have := hc _ (div_lt_of_flat hk) _ (mod_lt_of_flat hk) _ (div_lt_of_flat hl') _ (mod_lt_of_flat hl')
    (by rw [reg_cell hr, reg_cell hx, Nat.div_add_mod, Nat.div_add_mod]; exact e)
  rw [← Nat.div_add_mod k r.n1, ← Nat.div_add_mod l x.n1, this.1, this.2, h1]

theorem reg_apart {r x : RV2} (hr : r.isRegular = true) (hx : x.isRegular = true) (h1 : r.n1 = x.n1)
    (h0 : r.n0 = x.n0) (hc : r.Apart x) :
    ∀ k, k < r.n0 * r.n1 → ∀ l, l < r.n0 * r.n1 → r.arr + k ≠ x.arr + l := by
  intro k hk l hl e
  have hl' : l < x.n0 * x.n1 := by rw [← h1, ← h0]; exact hl
  exact hc _ (div_lt_of_flat hk) _ (mod_lt_of_flat hk) _ (div_lt_of_flat hl') _ (mod_lt_of_flat hl')
    (by rw [reg_cell hr, reg_cell hx, Nat.div_add_mod, Nat.div_add_mod]; exact e)

end RV2

open RV2

/-! ## C133: element-wise operations on matrix views -/

theorem C133_fill (r : RV2) (v : α) (hr : r.Inj) (m : Buf α) (R : Nat → Nat → α) (hR : r.Has m R) :
    ∃ m', r.fill v m = .ok m' ∧ r.Becomes m m' fun _ _ => v := by
  obtain ⟨m', h1, h2⟩ := loop2_cells r.n0 r.n1 r.cell (fun _ _ => v)
    (fun i j m => m.write (r.arr + (i * r.s0 + j * r.s1)) v) m hr
    (fun i hi j hj => by rw [hR i hi j hj]; rfl) (by intros; rw [cell_comm])
  exact ⟨m', h1, h2⟩

theorem C133_addConst [Add α] (r : RV2) (v : α) (hr : r.Inj) (m : Buf α) (R : Nat → Nat → α) (hR : r.Has m R) :
    ∃ m', r.addConst v m = .ok m' ∧ r.Becomes m m' fun i j => R i j + v := by
  obtain ⟨m', h1, h2⟩ := loop2_cells r.n0 r.n1 r.cell (fun i j => R i j + v)
    (fun i j m => incCell m (r.arr + (i * r.s0 + j * r.s1)) v) m hr
    (fun i hi j hj => by rw [hR i hi j hj]; rfl) (by
      intro i hi j hj m' hm'
      have e : m' (r.cell i j) = some (R i j) := by
        rw [hm' _ fun k hk l hl hkl e => hkl (hr k hk l hl i hi j hj e.symm)]; exact hR i hi j hj
      rw [cell_comm, incCell_ok e])
  exact ⟨m', h1, h2⟩

theorem C133_set (r x : RV2) (h0 : r.n0 = x.n0) (h1 : r.n1 = x.n1) (hr : r.Inj) (hx : r.Apart x) (m : Buf α)
    (R X : Nat → Nat → α) (hR : r.Has m R) (hX : x.Has m X) :
    ∃ m', r.set x m = .ok m' ∧ r.Becomes m m' X := by
  simp only [RV2.set, h0, h1, decide_true, Res.assrt, if_true, Res.ok_bind, Bool.and_eq_true]
  by_cases h : r.isRegular = true ∧ x.isRegular = true
  · rw [if_pos h]
    have hX' := (reg_has h.2 m X).1 hX
    have hR' := (reg_has h.1 m R).1 hR
    obtain ⟨m', g1, g2, g3⟩ := stdCopy_ok m x.arr (x.n0 * x.n1) r.arr (fun k => X (k / x.n1) (k % x.n1))
      (fun i hi => by rw [hR' i (by rw [h0, h1]; exact hi)]; rfl) hX'
      (by have := reg_apart h.1 h.2 h1 h0 hx; rwa [h0, h1] at this)
    refine ⟨m', g1, (reg_has h.1 m' X).2 ?_, (reg_frame h.1 m m').2 ?_⟩
    · rw [h0, h1]; exact g2
    · rw [h0, h1]; exact g3
  · rw [if_neg h]
    obtain ⟨m', g1, g2⟩ := loop2_cells r.n0 r.n1 r.cell X (fun i j m => do
        let v ← m.read (x.cell i j)
        m.write (r.cell i j) v) m hr (fun i hi j hj => by rw [hR i hi j hj]; rfl) (by
      intro i hi j hj m' hm'
      have : m' (x.cell i j) = some (X i j) := by
        rw [hm' _ fun k hk l hl hkl e => hx k hk l hl i (h0 ▸ hi) j (h1 ▸ hj) e.symm]
        exact hX i (h0 ▸ hi) j (h1 ▸ hj)
      rw [read_ok this, Res.ok_bind])
    exact ⟨m', by rw [← h0, ← h1]; exact g1, g2⟩

/-- The two accumulating operations share this shape. -/
theorem acc_core (op : α → α → α) (r x : RV2) (h0 : r.n0 = x.n0) (h1 : r.n1 = x.n1) (hr : r.Inj) (hx : r.Compat x)
    (m : Buf α) (R X : Nat → Nat → α) (hR : r.Has m R) (hX : x.Has m X) (body : Nat → Nat → Buf α → Res (Buf α))
    (hb : ∀ i j m a b, m (r.cell i j) = some a → m (x.cell i j) = some b → body i j m = m.write (r.cell i j) (op a b)) :
    ∃ m', (if x.n0 * x.n1 = 0 then Res.ok m
      else if r.isRegular = true ∧ x.isRegular = true then stdAdd op m x.arr (r.n0 * r.s0) r.arr
      else loop x.n0 m fun i m => loop x.n1 m fun j m => body i j m) = .ok m' ∧
      r.Becomes m m' fun i j => op (R i j) (X i j) := by
  by_cases hz : x.n0 * x.n1 = 0
  · rw [if_pos hz]
    refine ⟨m, rfl, fun i hi j hj => ?_, fun _ _ => rfl⟩
    exfalso
    rw [h0] at hi; rw [h1] at hj
    rcases Nat.mul_eq_zero.1 hz with h | h <;> omega
  rw [if_neg hz]
  by_cases h : r.isRegular = true ∧ x.isRegular = true
  · rw [if_pos h, (RV2.isRegular_iff.1 h.1).2]
    have hX' := (reg_has h.2 m X).1 hX
    have hR' := (reg_has h.1 m R).1 hR
    obtain ⟨m', g1, g2, g3⟩ := stdAdd_ok op m x.arr (r.n0 * r.n1) r.arr (fun k => R (k / r.n1) (k % r.n1))
      (fun k => X (k / x.n1) (k % x.n1)) hR' (by rw [h0, h1]; exact hX') (reg_compat h.1 h.2 h1 h0 hx)
    refine ⟨m', g1, (reg_has h.1 m' _).2 ?_, (reg_frame h.1 m m').2 g3⟩
    intro k hk
    rw [g2 k hk, h1]
  · rw [if_neg h, ← h0, ← h1]
    apply loop2_cells r.n0 r.n1 r.cell (fun i j => op (R i j) (X i j)) body m hr
      (fun i hi j hj => by rw [hR i hi j hj]; rfl)
    intro i hi j hj m' hm'
    apply hb
    · rw [hm' _ fun k hk l hl hkl e => hkl (hr k hk l hl i hi j hj e.symm)]; exact hR i hi j hj
    · rw [hm' _ fun k hk l hl hkl e => hkl (hx k hk l hl i (h0 ▸ hi) j (h1 ▸ hj) e.symm)]
      exact hX i (h0 ▸ hi) j (h1 ▸ hj)

theorem C133_add [Add α] (r x : RV2) (h0 : r.n0 = x.n0) (h1 : r.n1 = x.n1) (hr : r.Inj) (hx : r.Compat x)
    (m : Buf α) (R X : Nat → Nat → α) (hR : r.Has m R) (hX : x.Has m X) :
    ∃ m', r.add x m = .ok m' ∧ r.Becomes m m' fun i j => R i j + X i j := by
  obtain ⟨m', g1, g2⟩ := acc_core (· + ·) r x h0 h1 hr hx m R X hR hX (fun i j m => do
      let v ← m.read (x.cell i j)
      incCell m (r.cell i j) v) (by
    intro i j m a b ha hb
    rw [read_ok hb, Res.ok_bind, incCell_ok ha])
  refine ⟨m', ?_, g2⟩
  rw [← g1]
  simp only [RV2.add, h0, h1, decide_true, Res.assrt, if_true, Res.ok_bind, Bool.and_eq_true]

theorem C133_addScaled [Add α] [Mul α] (r x : RV2) (c : α) (h0 : r.n0 = x.n0) (h1 : r.n1 = x.n1) (hr : r.Inj)
    (hx : r.Compat x) (m : Buf α) (R X : Nat → Nat → α) (hR : r.Has m R) (hX : x.Has m X) :
    ∃ m', r.addScaled x c m = .ok m' ∧ r.Becomes m m' fun i j => R i j + c * X i j := by
  obtain ⟨m', g1, g2⟩ := acc_core (fun a b => a + c * b) r x h0 h1 hr hx m R X hR hX (fun i j m => do
      let v ← m.read (x.cell i j)
      incCell m (r.cell i j) (c * v)) (by
    intro i j m a b ha hb
    rw [read_ok hb, Res.ok_bind, incCell_ok ha])
  refine ⟨m', ?_, g2⟩
  rw [← g1]
  simp only [RV2.addScaled, stdAddC, stdAdd, h0, h1, decide_true, Res.assrt, if_true, Res.ok_bind, Bool.and_eq_true]

theorem C133_addOuter [Add α] [Mul α] (r : RV2) (x y : RV1) (h0 : r.n0 = x.n0) (h1 : r.n1 = y.n0) (hr : r.Inj)
    (hx : r.Apart1 x) (hy : r.Apart1 y) (m : Buf α) (R : Nat → Nat → α) (X Y : Nat → α) (hR : r.Has m R)
    (hX : x.Has m X) (hY : y.Has m Y) :
    ∃ m', r.addOuter x y m = .ok m' ∧ r.Becomes m m' fun i j => R i j + X i * Y j := by
  obtain ⟨m', g1, g2⟩ := loop2_cells r.n0 r.n1 r.cell (fun i j => R i j + X i * Y j) (fun i j m => do
      let a ← m.read (x.cell i)
      let b ← m.read (y.cell j)
      incCell m (r.cell i j) (a * b)) m hr (fun i hi j hj => by rw [hR i hi j hj]; rfl) (by
    intro i hi j hj m' hm'
    have e1 : m' (r.cell i j) = some (R i j) := by
      rw [hm' _ fun k hk l hl hkl e => hkl (hr k hk l hl i hi j hj e.symm)]; exact hR i hi j hj
    have e2 : m' (x.cell i) = some (X i) := by
      rw [hm' _ fun k hk l hl _ e => hx k hk l hl i (h0 ▸ hi) e.symm]; exact hX i (h0 ▸ hi)
    have e3 : m' (y.cell j) = some (Y j) := by
      rw [hm' _ fun k hk l hl _ e => hy k hk l hl j (h1 ▸ hj) e.symm]; exact hY j (h1 ▸ hj)
    rw [read_ok e2, Res.ok_bind, read_ok e3, Res.ok_bind, incCell_ok e1])
  exact ⟨m', by simpa [RV2.addOuter, ← h0, ← h1] using g1, g2⟩

theorem C133_refuses [Add α] [Mul α] (r x : RV2) (c : α) (h : x.n0 ≠ r.n0 ∨ x.n1 ≠ r.n1) (m : Buf α) :
    r.set x m = .throw ∧ r.add x m = .throw ∧ r.addScaled x c m = .throw := by
  unfold RV2.set RV2.add RV2.addScaled
  by_cases h0 : x.n0 = r.n0
  · have h1 : x.n1 ≠ r.n1 := by rcases h with h | h; · exact absurd h0 h
                                · exact h
    simp [h0, h1]
  · simp [h0]

example : ∃ m', (RV2.mk 0 2 2 1 2).add ⟨4, 2, 2, 2, 1⟩ (Buf.ofList [1, 2, 3, 4, 10, 20, 30, 40]) = .ok m' ∧
    m' 1 = some (32 : Int) ∧ m' 2 = some 23 ∧ m' 7 = some 40 := ⟨_, rfl, rfl, rfl, rfl⟩

example : ∃ m', (RV2.mk 0 2 2 2 1).addOuter ⟨4, 2, 1⟩ ⟨6, 2, 1⟩ (Buf.ofList [0, 0, 0, 0, 2, 3, 5, 7]) = .ok m' ∧
    m' 1 = some (14 : Int) ∧ m' 2 = some 15 := ⟨_, rfl, rfl, rfl⟩

/-! ## C134: matrix products, explicit forms -/

/-- The three product loops share this shape. -/
theorem mm_core [NonUnitalNonAssocSemiring α] (r : RV2) (n : Nat) (p q : Nat → Nat → Nat → Nat) (hr : r.Inj)
    (m : Buf α) (R : Nat → Nat → α) (A B : Nat → Nat → Nat → α) (hR : r.Has m R)
    (hp : ∀ a, a < r.n0 → ∀ b, b < r.n1 → ∀ i, i < n →
      m (p a b i) = some (A a b i) ∧ ∀ k, k < r.n0 → ∀ l, l < r.n1 → p a b i ≠ r.cell k l)
    (hq : ∀ a, a < r.n0 → ∀ b, b < r.n1 → ∀ i, i < n →
      m (q a b i) = some (B a b i) ∧ ∀ k, k < r.n0 → ∀ l, l < r.n1 → q a b i ≠ r.cell k l) :
    ∃ m', loop r.n0 m (fun a m => loop r.n1 m fun b m => do
        let t ← dotLoop n (p a b) (q a b) m
        incCell m (r.cell a b) t) = .ok m' ∧
      r.Becomes m m' fun a b => R a b + ((List.range n).map fun i => A a b i * B a b i).sum := by
  apply loop2_cells r.n0 r.n1 r.cell (fun a b => R a b + ((List.range n).map fun i => A a b i * B a b i).sum) _ m hr
    (fun i hi j hj => by rw [hR i hi j hj]; rfl)
  intro a ha b hb m' hm'
  have e1 : m' (r.cell a b) = some (R a b) := by
    rw [hm' _ fun k hk l hl hkl e => hkl (hr k hk l hl a ha b hb e.symm)]; exact hR a ha b hb
  rw [dotLoop_ok n (p a b) (q a b) m' (A a b) (B a b), Res.ok_bind, incCell_ok e1]
  · intro i hi
    rw [hm' _ fun k hk l hl _ => (hp a ha b hb i hi).2 k hk l hl]; exact (hp a ha b hb i hi).1
  · intro i hi
    rw [hm' _ fun k hk l hl _ => (hq a ha b hb i hi).2 k hk l hl]; exact (hq a ha b hb i hi).1

/-- `add_matmul_AA`: `r += x·y`. -/
theorem C134_AA [NonUnitalNonAssocSemiring α] (r x y : RV2) (h0 : x.n0 = r.n0) (h1 : y.n1 = r.n1) (hI : y.n0 = x.n1)
    (hr : r.Inj) (hx : r.Apart x) (hy : r.Apart y) (m : Buf α) (R X Y : Nat → Nat → α) (hR : r.Has m R)
    (hX : x.Has m X) (hY : y.Has m Y) :
    ∃ m', r.addMatmulAA x y m = .ok m' ∧
      r.Becomes m m' fun a b => R a b + ((List.range x.n1).map fun i => X a i * Y i b).sum := by
  obtain ⟨m', g1, g2⟩ := mm_core r x.n1 (fun a _ i => x.cell a i) (fun _ b i => y.cell i b) hr m R
    (fun a _ i => X a i) (fun _ b i => Y i b) hR
    (fun a ha b hb i hi => ⟨hX a (h0 ▸ ha) i hi, fun k hk l hl => (hx k hk l hl a (h0 ▸ ha) i hi).symm⟩)
    (fun a ha b hb i hi => ⟨hY i (hI ▸ hi) b (h1 ▸ hb), fun k hk l hl => (hy k hk l hl i (hI ▸ hi) b (h1 ▸ hb)).symm⟩)
  exact ⟨m', by simpa [RV2.addMatmulAA, h0, h1, hI] using g1, g2⟩

/-- `add_matmul_AT`: `r += x·yᵀ`. -/
theorem C134_AT [NonUnitalNonAssocSemiring α] (r x y : RV2) (h0 : x.n0 = r.n0) (h1 : y.n0 = r.n1) (hI : y.n1 = x.n1)
    (hr : r.Inj) (hx : r.Apart x) (hy : r.Apart y) (m : Buf α) (R X Y : Nat → Nat → α) (hR : r.Has m R)
    (hX : x.Has m X) (hY : y.Has m Y) :
    ∃ m', r.addMatmulAT x y m = .ok m' ∧
      r.Becomes m m' fun a b => R a b + ((List.range x.n1).map fun i => X a i * Y b i).sum := by
  obtain ⟨m', g1, g2⟩ := mm_core r x.n1 (fun a _ i => x.cell a i) (fun _ b i => y.cell b i) hr m R
    (fun a _ i => X a i) (fun _ b i => Y b i) hR
    (fun a ha b hb i hi => ⟨hX a (h0 ▸ ha) i hi, fun k hk l hl => (hx k hk l hl a (h0 ▸ ha) i hi).symm⟩)
    (fun a ha b hb i hi => ⟨hY b (h1 ▸ hb) i (hI ▸ hi), fun k hk l hl => (hy k hk l hl b (h1 ▸ hb) i (hI ▸ hi)).symm⟩)
  exact ⟨m', by simpa [RV2.addMatmulAT, h0, h1, hI] using g1, g2⟩

/-- `add_matmul_TA`: `r += xᵀ·y`. -/
theorem C134_TA [NonUnitalNonAssocSemiring α] (r x y : RV2) (h0 : x.n1 = r.n0) (h1 : y.n1 = r.n1) (hI : y.n0 = x.n0)
    (hr : r.Inj) (hx : r.Apart x) (hy : r.Apart y) (m : Buf α) (R X Y : Nat → Nat → α) (hR : r.Has m R)
    (hX : x.Has m X) (hY : y.Has m Y) :
    ∃ m', r.addMatmulTA x y m = .ok m' ∧
      r.Becomes m m' fun a b => R a b + ((List.range x.n0).map fun i => X i a * Y i b).sum := by
  obtain ⟨m', g1, g2⟩ := mm_core r x.n0 (fun a _ i => x.cell i a) (fun _ b i => y.cell i b) hr m R
    (fun a _ i => X i a) (fun _ b i => Y i b) hR
    (fun a ha b hb i hi => ⟨hX i hi a (h0 ▸ ha), fun k hk l hl => (hx k hk l hl i hi a (h0 ▸ ha)).symm⟩)
    (fun a ha b hb i hi => ⟨hY i (hI ▸ hi) b (h1 ▸ hb), fun k hk l hl => (hy k hk l hl i (hI ▸ hi) b (h1 ▸ hb)).symm⟩)
  exact ⟨m', by simpa [RV2.addMatmulTA, h0, h1, hI] using g1, g2⟩

/-- Sizes that do not fit are refused. -/
theorem C134_refuses [Zero α] [Add α] [Mul α] (r x y : RV2) (m : Buf α) :
    (¬ (x.n0 = r.n0 ∧ y.n1 = r.n1 ∧ y.n0 = x.n1) → r.addMatmulAA x y m = .throw) ∧
    (¬ (x.n0 = r.n0 ∧ y.n0 = r.n1 ∧ y.n1 = x.n1) → r.addMatmulAT x y m = .throw) ∧
    (¬ (x.n1 = r.n0 ∧ y.n0 = x.n0 ∧ y.n1 = r.n1) → r.addMatmulTA x y m = .throw) := by
  have key : ∀ (p q s : Prop) [Decidable p] [Decidable q] [Decidable s] (k : Res (Buf α)), ¬ (p ∧ q ∧ s) →
      (do Res.assrt (decide p); Res.assrt (decide q); Res.assrt (decide s); k) = .throw := by
    intro p q s _ _ _ k h
    by_cases hp : p
    · by_cases hq : q
      · have hs : ¬ s := fun hs => h ⟨hp, hq, hs⟩
        simp [hp, hq, hs]
      · simp [hp, hq]
    · simp [hp]
  exact ⟨fun h => key _ _ _ _ h, fun h => key _ _ _ _ h, fun h => key _ _ _ _ h⟩

/-- One-vector products: `y_a += Σ_b A_{ab} x_b`, both spellings. -/
theorem C134_mprodTo [NonUnitalNonAssocSemiring α] (A : RV2) (y x : RV1) (h1 : x.n0 = A.n1) (h0 : y.n0 = A.n0)
    (hy : y.Inj) (hyA : A.Apart1 y) (hyx : y.Apart x) (m : Buf α) (Y X : Nat → α) (M : Nat → Nat → α)
    (hY : y.Has m Y) (hX : x.Has m X) (hA : A.Has m M) :
    ∃ m', A.addMprodTo y x m = .ok m' ∧ addMatmulAxTo y A x m = .ok m' ∧
      y.Becomes m m' fun a => Y a + ((List.range A.n1).map fun b => M a b * X b).sum := by
  obtain ⟨m', g1, g2⟩ := loop_cells y.n0 y.cell (fun a => Y a + ((List.range A.n1).map fun b => M a b * X b).sum)
    (fun a m => do
      let t ← dotLoop A.n1 (fun b => A.cell a b) (fun b => x.cell b) m
      incCell m (y.cell a) t) m hy (fun i hi => by rw [hY i hi]; rfl) (by
    intro a ha m' hm'
    have e1 : m' (y.cell a) = some (Y a) := by
      rw [hm' _ fun j hj hja e => hja (hy j hj a ha e.symm)]; exact hY a ha
    rw [dotLoop_ok A.n1 _ _ m' (M a) X, Res.ok_bind, incCell_ok e1]
    · intro b hb
      rw [hm' _ fun j hj _ => hyA a (h0 ▸ ha) b hb j hj]; exact hA a (h0 ▸ ha) b hb
    · intro b hb
      rw [hm' _ fun j hj _ => (hyx j hj b (h1 ▸ hb)).symm]; exact hX b (h1 ▸ hb))
  refine ⟨m', ?_, ?_, g2⟩
  · simpa [RV2.addMprodTo, h0, h1] using g1
  · simpa [RV2.addMatmulAxTo, h0, h1] using g1

example : ∃ m', (RV2.mk 0 1 2 2 1).addMatmulAA ⟨2, 1, 2, 2, 1⟩ ⟨4, 2, 2, 2, 1⟩
    (Buf.ofList [100, 200, 1, 2, 3, 4, 5, 6]) = .ok m' ∧ m' 0 = some (113 : Int) ∧ m' 1 = some 216 :=
  ⟨_, rfl, rfl, rfl⟩

/-! ## C135: the `add_mprod` dispatcher -/

/-- The layouts `add_mprod` handles. -/
def Handled (r x y : RV2) : Prop :=
  r.isRegular = true ∧ (x.isRegular = true ∧ y.isRegular = true ∨ x.isRegular = true ∧ y.isTranspose = true ∨
    x.isTranspose = true ∧ y.isRegular = true)

/-- Missing: layouts outside `Handled`, see `C135_mprod_fails`. -/
theorem C135_mprod_partial [NonUnitalNonAssocSemiring α] (r x y : RV2) (hh : Handled r x y) (h0 : x.n0 = r.n0)
    (h1 : y.n1 = r.n1) (hI : y.n0 = x.n1) (hx : r.Apart x) (hy : r.Apart y) (m : Buf α)
    (R X Y : Nat → Nat → α) (hR : r.Has m R) (hX : x.Has m X) (hY : y.Has m Y) :
    ∃ m', r.addMprod x y m = .ok m' ∧
      r.Becomes m m' fun a b => R a b + ((List.range x.n1).map fun i => X a i * Y i b).sum := by
  obtain ⟨hr, hh⟩ := hh
  have hT : ∀ (v : RV2) (i j : Nat), v.transp.cell i j = v.cell j i := by
    intro v i j; simp [RV2.transp, RV2.cell, Nat.add_comm]
  unfold RV2.addMprod
  simp only [hr, Bool.true_and, Bool.and_eq_true]
  by_cases c1 : x.isRegular = true ∧ y.isRegular = true
  · rw [if_pos c1]; exact C134_AA r x y h0 h1 hI (reg_inj hr) hx hy m R X Y hR hX hY
  rw [if_neg c1]
  by_cases c2 : x.isRegular = true ∧ y.isTranspose = true
  · rw [if_pos c2]
    exact C134_AT r x y.transp h0 h1 hI (reg_inj hr) hx
      (fun i hi j hj k hk l hl => by rw [hT]; exact hy i hi j hj l hl k hk) m R X (fun i j => Y j i) hR hX
      (fun i hi j hj => by rw [hT]; exact hY j hj i hi)
  rw [if_neg c2]
  have c3 : x.isTranspose = true ∧ y.isRegular = true := by
    rcases hh with h | h | h
    · exact absurd h c1
    · exact absurd h c2
    · exact h
  rw [if_pos c3]
  exact C134_TA r x.transp y h0 h1 hI (reg_inj hr)
    (fun i hi j hj k hk l hl => by rw [hT]; exact hx i hi j hj l hl k hk) hy m R (fun i j => X j i) Y hR
    (fun i hi j hj => by rw [hT]; exact hX j hj i hi) hY

/-- In every other layout the call returns normally with the memory unchanged, whatever the sizes. -/
theorem C135_mprod_silent [NonUnitalNonAssocSemiring α] (r x y : RV2) (hh : ¬ Handled r x y) (m : Buf α) :
    r.addMprod x y m = .ok m := by
  unfold Handled at hh
  unfold RV2.addMprod
  cases hr : r.isRegular <;> cases hx : x.isRegular <;> cases hy : y.isRegular <;> cases hxt : x.isTranspose <;>
    cases hyt : y.isTranspose <;> simp_all

/-- The full statement fails: the product of two 2×2 matrices which are both stored by columns is lost. -/
theorem C135_mprod_fails : ∃ (r x y : RV2) (m m' : Buf Int) (R X Y : Nat → Nat → Int), x.n0 = r.n0 ∧ y.n1 = r.n1 ∧
    y.n0 = x.n1 ∧ r.Inj ∧ r.Apart x ∧ r.Apart y ∧ r.Has m R ∧ x.Has m X ∧ y.Has m Y ∧ r.addMprod x y m = .ok m' ∧
    m' (r.cell 0 0) ≠ some (R 0 0 + ((List.range x.n1).map fun i => X 0 i * Y i 0).sum) := by
  refine ⟨⟨0, 2, 2, 2, 1⟩, ⟨4, 2, 2, 1, 2⟩, ⟨8, 2, 2, 1, 2⟩, Buf.ofList [0, 0, 0, 0, 1, 1, 1, 1, 1, 1, 1, 1], _,
    fun _ _ => 0, fun _ _ => 1, fun _ _ => 1, rfl, rfl, rfl, reg_inj rfl, ?_, ?_, ?_, ?_, ?_, rfl, ?_⟩
  · intro i hi j hj k hk l hl; simp [RV2.cell] at *; omega
  · intro i hi j hj k hk l hl; simp [RV2.cell] at *; omega
  · intro i hi j hj; have : i < 2 := hi; have : j < 2 := hj; interval_cases i <;> interval_cases j <;> rfl
  · intro i hi j hj; have : i < 2 := hi; have : j < 2 := hj; interval_cases i <;> interval_cases j <;> rfl
  · intro i hi j hj; have : i < 2 := hi; have : j < 2 := hj; interval_cases i <;> interval_cases j <;> rfl
  · decide

example : Handled ⟨0, 2, 3, 3, 1⟩ ⟨6, 2, 2, 2, 1⟩ ⟨10, 2, 3, 1, 2⟩ := by unfold Handled; decide

/-! ## C136: sums of matrix views -/

theorem C136_sum0 [AddCommMonoid α] (v : RV2) (r : RV1) (hn : r.n0 = v.n1) (hr : r.Inj) (hv : v.Apart1 r)
    (m : Buf α) (R : Nat → α) (X : Nat → Nat → α) (hR : r.Has m R) (hX : v.Has m X) :
    ∃ m', v.sum0Into r m = .ok m' ∧
      r.Becomes m m' fun j => R j + ((List.range v.n0).map fun i => X i j).sum := by
  obtain ⟨m', g1, g2⟩ := loop_cells r.n0 r.cell (fun j => R j + ((List.range v.n0).map fun i => X i j).sum)
    (fun j m => do
      let t ← sumLoop v.n0 (fun i => v.cell i j) m
      incCell m (r.cell j) t) m hr (fun i hi => by rw [hR i hi]; rfl) (by
    intro j hj m' hm'
    have e1 : m' (r.cell j) = some (R j) := by
      rw [hm' _ fun k hk hkj e => hkj (hr k hk j hj e.symm)]; exact hR j hj
    rw [sumLoop_ok v.n0 _ m' (fun i => X i j), Res.ok_bind, incCell_ok e1]
    intro i hi
    rw [hm' _ fun k hk _ => hv i hi j (hn ▸ hj) k hk]; exact hX i hi j (hn ▸ hj))
  exact ⟨m', by simpa [RV2.sum0Into, hn] using g1, g2⟩

theorem C136_avg0 [AddCommMonoid α] (dv : α → Nat → α) (v : RV2) (r : RV1) (hn : r.n0 = v.n1) (hr : r.Inj)
    (hv : v.Apart1 r) (m : Buf α) (R : Nat → α) (X : Nat → Nat → α) (hR : r.Has m R) (hX : v.Has m X) :
    ∃ m', v.avg0Into dv r m = .ok m' ∧
      r.Becomes m m' fun j => R j + dv ((List.range v.n0).map fun i => X i j).sum v.n0 := by
  obtain ⟨m', g1, g2⟩ := loop_cells r.n0 r.cell (fun j => R j + dv ((List.range v.n0).map fun i => X i j).sum v.n0)
    (fun j m => do
      let t ← sumLoop v.n0 (fun i => v.cell i j) m
      incCell m (r.cell j) (dv t v.n0)) m hr (fun i hi => by rw [hR i hi]; rfl) (by
    intro j hj m' hm'
    have e1 : m' (r.cell j) = some (R j) := by
      rw [hm' _ fun k hk hkj e => hkj (hr k hk j hj e.symm)]; exact hR j hj
    rw [sumLoop_ok v.n0 _ m' (fun i => X i j), Res.ok_bind, incCell_ok e1]
    intro i hi
    rw [hm' _ fun k hk _ => hv i hi j (hn ▸ hj) k hk]; exact hX i hi j (hn ▸ hj))
  exact ⟨m', by simpa [RV2.avg0Into, hn] using g1, g2⟩

/-- The non-const overload of `sum1_into`. -/
theorem C136_sum1 [AddCommMonoid α] (v : RV2) (r : RV1) (hn : r.n0 = v.n0) (hr : r.Inj) (hv : v.Apart1 r)
    (m : Buf α) (R : Nat → α) (X : Nat → Nat → α) (hR : r.Has m R) (hX : v.Has m X) :
    ∃ m', v.sum1Into r m = .ok m' ∧
      r.Becomes m m' fun i => R i + ((List.range v.n1).map fun j => X i j).sum := by
  obtain ⟨m', g1, g2⟩ := loop_cells r.n0 r.cell (fun i => R i + ((List.range v.n1).map fun j => X i j).sum)
    (fun i m => do
      let t ← sumLoop v.n1 (fun j => v.cell i j) m
      incCell m (r.cell i) t) m hr (fun i hi => by rw [hR i hi]; rfl) (by
    intro i hi m' hm'
    have e1 : m' (r.cell i) = some (R i) := by
      rw [hm' _ fun k hk hkj e => hkj (hr k hk i hi e.symm)]; exact hR i hi
    rw [sumLoop_ok v.n1 _ m' (fun j => X i j), Res.ok_bind, incCell_ok e1]
    intro j hj
    rw [hm' _ fun k hk _ => hv i (hn ▸ hi) j hj k hk]; exact hX i (hn ▸ hi) j hj)
  exact ⟨m', by simpa [RV2.sum1Into, hn] using g1, g2⟩

/-- `sum()` of a strided view, row by row. -/
theorem sum_strided [AddCommMonoid α] (n0 n1 : Nat) (m : Buf α) (p : Nat → Nat → Nat) (X : Nat → Nat → α)
    (hX : ∀ i, i < n0 → ∀ j, j < n1 → m (p i j) = some (X i j)) :
    loop n0 (0 : α) (fun i t => loop n1 t fun j t => do
        let a ← m.read (p i j)
        .ok (t + a)) = .ok (((List.range n0).map fun i => ((List.range n1).map fun j => X i j).sum).sum) := by
  rw [loop_sum n0 0 _ (fun i => ((List.range n1).map fun j => X i j).sum), zero_add]
  intro i hi t
  rw [loop_sum n1 t _ (fun j => X i j)]
  intro j hj t
  rw [read_ok (hX i hi j hj), Res.ok_bind]

theorem sum_flat [AddCommMonoid α] (n0 n1 : Nat) (X : Nat → Nat → α) :
    ((List.range (n0 * n1)).map fun k => X (k / n1) (k % n1)).sum =
      ((List.range n0).map fun i => ((List.range n1).map fun j => X i j).sum).sum := by
  induction n0 with
  | zero => simp
  | succ n ih =>
    rw [List.range_succ, List.map_append, List.sum_append, ← ih, Nat.succ_mul, List.range_add, List.map_append,
      List.sum_append]
    congr 1
    simp only [List.map_cons, List.map_nil, List.sum_cons, List.sum_nil, add_zero, List.map_map]
    congr 1
    apply List.map_congr_left
    intro j hj
    have hj := List.mem_range.1 hj
    simp only [Function.comp, Nat.mul_comm n n1, flat_div hj, flat_mod hj]

theorem C136_sum [AddCommMonoid α] (v : RV2) (m : Buf α) (X : Nat → Nat → α) (hX : v.Has m X) :
    v.sum m = .ok (((List.range v.n0).map fun i => ((List.range v.n1).map fun j => X i j).sum).sum) := by
  unfold RV2.sum
  split
  · rename_i h
    have hX' := (reg_has h m X).1 hX
    rw [loop_sum (v.n0 * v.n1) 0 _ (fun k => X (k / v.n1) (k % v.n1)), zero_add, sum_flat]
    intro k hk t
    rw [read_ok (hX' k hk), Res.ok_bind]
  · exact sum_strided v.n0 v.n1 m v.cell X hX

theorem C136_refuses [Zero α] [Add α] (dv : α → Nat → α) (v : RV2) (r : RV1) (m : Buf α) :
    (r.n0 ≠ v.n1 → v.sum0Into r m = .throw ∧ v.avg0Into dv r m = .throw) ∧
    (r.n0 ≠ v.n0 → v.sum1Into r m = .throw) := by
  refine ⟨fun h => ?_, fun h => ?_⟩
  · simp [RV2.sum0Into, RV2.avg0Into, h]
  · simp [RV2.sum1Into, h]

example : (RV2.mk 0 2 3 3 1).sum (Buf.ofList [(1 : Int), 2, 3, 4, 5, 6]) = .ok 21 := by decide

example : ∃ m', (RV2.mk 0 2 3 3 1).sum1Into ⟨6, 2, 1⟩ (Buf.ofList [1, 2, 3, 4, 5, 6, 0, 0]) = .ok m' ∧
    m' 6 = some (6 : Int) ∧ m' 7 = some 15 := ⟨_, rfl, rfl, rfl⟩

/-! ## C137: `sum1_into` on a const view -/

/-- Missing: non-square matrices, see the theorems below. -/
theorem C137_sum1_const_partial [AddCommMonoid α] (v : RV2) (r : RV1) (hsq : v.n0 = v.n1) (hn : r.n0 = v.n0)
    (hr : r.Inj) (hv : v.Apart1 r) (m : Buf α) (R : Nat → α) (X : Nat → Nat → α) (hR : r.Has m R) (hX : v.Has m X) :
    ∃ m', v.sum1IntoConst r m = .ok m' ∧
      r.Becomes m m' fun i => R i + ((List.range v.n1).map fun j => X i j).sum := by
  obtain ⟨m', g1, g2⟩ := C136_sum1 v r hn hr hv m R X hR hX
  refine ⟨m', ?_, g2⟩
  rw [← g1]
  simp [RV2.sum1IntoConst, RV2.sum1Into, hn, hsq]

/-- The full statement fails for every non-square matrix: the right target vector is refused. -/
theorem C137_sum1_const_refused [Zero α] [Add α] (v : RV2) (r : RV1) (hsq : v.n0 ≠ v.n1) (hn : r.n0 = v.n0) (m : Buf α) :
    v.sum1IntoConst r m = .throw := by
  have : r.n0 ≠ v.n1 := by omega
  simp [RV2.sum1IntoConst, this]

/-- And a vector of the wrong length is accepted: on a 2×1 matrix a vector of length one lets the call
write a cell behind it. -/
theorem C137_sum1_const_fails : ∃ (v : RV2) (r : RV1) (m m' : Buf Int), v.Inj ∧ r.Inj ∧ v.Apart1 r ∧
    v.sum1IntoConst r m = .ok m' ∧ (∀ i, i < r.n0 → 7 ≠ r.cell i) ∧ m' 7 ≠ m 7 := by
  refine ⟨⟨0, 2, 1, 1, 1⟩, ⟨6, 1, 1⟩, Buf.ofList [1, 2, 0, 0, 0, 0, 0, 0], _, ?_, RV1.inj_of_stride (by decide), ?_,
    rfl, ?_, ?_⟩
  · exact reg_inj rfl
  · intro i hi j hj k hk; simp [RV2.cell, RV1.cell] at *; omega
  · intro i hi; simp [RV1.cell] at *; omega
  · decide

example : (RV2.mk 0 2 3 3 1).sum1IntoConst ⟨6, 2, 1⟩ (Buf.ofList [(1 : Int), 2, 3, 4, 5, 6, 0, 0]) = .throw := rfl

/-! ## C138: views of views -/

theorem C138_transp (v : RV2) (i j : Nat) : v.transp.cell i j = v.cell j i ∧ v.transp.n0 = v.n1 ∧ v.transp.n1 = v.n0 ∧
    v.transp.transp = v := by
  refine ⟨?_, rfl, rfl, rfl⟩
  simp [RV2.transp, RV2.cell, Nat.add_comm]

theorem C138_slices (v : RV2) (i j : Nat) :
    (v.slice0 i).cell j = v.cell i j ∧ (v.slice1 j).cell i = v.cell i j ∧
    (v.slice0 i).n0 = v.n1 ∧ (v.slice1 j).n0 = v.n0 := by
  refine ⟨?_, ?_, rfl, rfl⟩ <;> simp only [RV2.slice0, RV2.slice1, RV1.cell, RV2.cell] <;> ring

theorem C138_diag (v : RV2) (i : Nat) :
    (v.n0 = v.n1 → ∃ d, v.diag = .ok d ∧ d.n0 = v.n0 ∧ d.cell i = v.cell i i) ∧
    (v.n0 ≠ v.n1 → v.diag = .throw) := by
  refine ⟨fun h => ⟨⟨v.arr, v.n0, v.s0 + v.s1⟩, by simp [RV2.diag, h], rfl, ?_⟩, fun h => by simp [RV2.diag, h]⟩
  simp only [RV1.cell, RV2.cell]; ring

theorem C138_block (v : RV2) (i0 i1 m0 m1 i j : Nat) :
    (v.block i0 i1 m0 m1).cell i j = v.cell (i0 + i) (i1 + j) ∧
    (v.cols i1 m1).cell i j = v.cell i (i1 + j) ∧ (v.rows i0 m0).cell i j = v.cell (i0 + i) j ∧
    (v.block i0 i1 m0 m1).n0 = m0 ∧ (v.block i0 i1 m0 m1).n1 = m1 ∧ (v.cols i1 m1).n0 = v.n0 ∧ (v.cols i1 m1).n1 = m1 ∧
    (v.rows i0 m0).n0 = m0 ∧ (v.rows i0 m0).n1 = v.n1 := by
  refine ⟨?_, ?_, ?_, rfl, rfl, rfl, rfl, rfl, rfl⟩ <;> simp only [RV2.block, RV2.cols, RV2.rows, RV2.cell] <;> ring

/-- `split0(x,i,j)` shows entry `a*j+b` of the vector at `(a,b)`. -/
theorem C138_split (x : RV1) (i j a b : Nat) :
    (i * j = x.n0 → ∃ v, RV2.split0 x i j = .ok v ∧ v.n0 = i ∧ v.n1 = j ∧ v.cell a b = x.cell (a * j + b)) ∧
    (i * j ≠ x.n0 → RV2.split0 x i j = .throw) := by
  refine ⟨fun h => ⟨⟨x.arr, i, j, x.s0 * j, x.s0⟩, by simp [RV2.split0, h], rfl, rfl, ?_⟩,
    fun h => by simp [RV2.split0, h]⟩
  simp only [RV1.cell, RV2.cell]; ring

theorem C138_repeat (x : RV1) (n a b : Nat) :
    (RV2.repeat0 x n).cell a b = x.cell b ∧ (RV2.repeat1 x n).cell a b = x.cell a ∧
    (RV2.repeat0 x n).n0 = n ∧ (RV2.repeat0 x n).n1 = x.n0 ∧ (RV2.repeat1 x n).n0 = x.n0 ∧ (RV2.repeat1 x n).n1 = n := by
  simp [RV2.repeat0, RV2.repeat1, RV1.cell, RV2.cell]

example : (RV2.mk 10 3 4 4 1).diag = .ok ⟨10, 3, 5⟩ ∨ (RV2.mk 10 3 4 4 1).diag = .throw := Or.inr rfl
example : (RV2.mk 10 3 3 3 1).diag = .ok ⟨10, 3, 4⟩ := rfl

/-! ## C139: fusing the two axes of a matrix view -/

/-- Missing: views with gaps between the rows, see `C139_fuse_fails`. -/
theorem C139_fuse_partial (v : RV2) (h : v.s0 = v.n1 * v.s1) (i j : Nat) :
    v.fuse01.n0 = v.n0 * v.n1 ∧ v.fuse01.cell (i * v.n1 + j) = v.cell i j := by
  refine ⟨rfl, ?_⟩
  simp only [RV2.fuse01, RV1.cell, RV2.cell, h]; ring

/-- The condition is necessary as soon as there are two rows and a column. -/
theorem C139_fuse_iff (v : RV2) (h0 : 2 ≤ v.n0) (h1 : 1 ≤ v.n1) :
    (∀ i, i < v.n0 → ∀ j, j < v.n1 → v.fuse01.cell (i * v.n1 + j) = v.cell i j) ↔ v.s0 = v.n1 * v.s1 := by
  constructor
  · intro h
    have := h 1 (by omega) 0 (by omega)
    simp only [RV2.fuse01, RV1.cell, RV2.cell, Nat.one_mul, Nat.mul_one, Nat.mul_zero, Nat.add_zero] at this
    rw [Nat.mul_comm v.n1]; omega
  · intro h i _ j _
    exact (C139_fuse_partial v h i j).2

/-- No assertion stops fusing the first two columns of a 2×3 matrix; row 1 is then misread. -/
theorem C139_fuse_fails : ∃ v : RV2, v.Inj ∧ v.fuse01.n0 = v.n0 * v.n1 ∧ v.fuse01.cell (1 * v.n1 + 0) ≠ v.cell 1 0 := by
  refine ⟨⟨0, 2, 2, 3, 1⟩, ?_, rfl, by decide⟩
  intro i hi j hj k hk l hl e; simp [RV2.cell] at *; omega

example : (RV2.mk 5 3 4 8 2).fuse01.cell (2 * 4 + 1) = (RV2.mk 5 3 4 8 2).cell 2 1 := rfl

end Cnine
