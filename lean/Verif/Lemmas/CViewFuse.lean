import Verif.Lemmas.CView
import Verif.Props.RView2

/-! Fused complex views and the views they come from. -/

namespace Cnine

variable {α : Type}

open RV2

theorem CV2.Has.congr {v : CV2} {m : Buf α} {X Y : Nat → Nat → Cx α} (h : v.Has m X)
    (e : ∀ i, i < v.n0 → ∀ j, j < v.n1 → X i j = Y i j) : v.Has m Y := fun i hi j hj => e i hi j hj ▸ h i hi j hj

theorem CV3.Has.congr {v : CV3} {m : Buf α} {X Y : Nat → Nat → Nat → Cx α} (h : v.Has m X)
    (e : ∀ i, i < v.n0 → ∀ j, j < v.n1 → ∀ k, k < v.n2 → X i j k = Y i j k) : v.Has m Y :=
  fun i hi j hj k hk => e i hi j hj k hk ▸ h i hi j hj k hk

theorem CV4.Has.congr {v : CV4} {m : Buf α} {X Y : Nat → Nat → Nat → Nat → Cx α} (h : v.Has m X)
    (e : ∀ i, i < v.n0 → ∀ j, j < v.n1 → ∀ k, k < v.n2 → ∀ l, l < v.n3 → X i j k l = Y i j k l) : v.Has m Y :=
  fun i hi j hj k hk l hl => e i hi j hj k hk l hl ▸ h i hi j hj k hk l hl

/-! ## The first two of three axes -/

theorem CV3.fuse01_off (v : CV3) (h : v.s0 = v.n1 * v.s1) (i j k : Nat) : v.fuse01.off (v.n1 * i + j) k = v.off i j k := by
  simp only [CV2.off, CV3.off, CV3.fuse01, h]; ring

theorem CV3.fuse01_off' (v : CV3) (h : v.s0 = v.n1 * v.s1) (a k : Nat) : v.fuse01.off a k = v.off (a / v.n1) (a % v.n1) k := by
  rw [← v.fuse01_off h, Nat.div_add_mod]

theorem CV3.fuse01_has {v : CV3} (h : v.s0 = v.n1 * v.s1) {m : Buf α} {X : Nat → Nat → Nat → Cx α} (hX : v.Has m X) :
    v.fuse01.Has m (fun a k => X (a / v.n1) (a % v.n1) k) := by
  intro a ha k hk
  have ha : a < v.n0 * v.n1 := ha
  rw [v.fuse01_off' h]
  exact hX _ (div_lt_of_flat ha) _ (mod_lt_of_flat ha) k hk

theorem CV3.has_fuse01 {v : CV3} (h : v.s0 = v.n1 * v.s1) {m : Buf α} {Y : Nat → Nat → Cx α} (hY : v.fuse01.Has m Y) :
    v.Has m (fun i j k => Y (v.n1 * i + j) k) := by
  intro i hi j hj k hk
  have := hY (v.n1 * i + j) (flat_lt hi hj) k hk
  rwa [v.fuse01_off h] at this

theorem CV3.fuse01_sep {v : CV3} (h : v.s0 = v.n1 * v.s1) (hs : v.Sep) : v.fuse01.Sep := by
  intro a ha k hk b hb l hl
  have ha : a < v.n0 * v.n1 := ha
  have hb : b < v.n0 * v.n1 := hb
  rw [v.fuse01_off' h, v.fuse01_off' h]
  have := hs _ (div_lt_of_flat ha) _ (mod_lt_of_flat ha) k hk _ (div_lt_of_flat hb) _ (mod_lt_of_flat hb) l hl
  refine ⟨fun e => ?_, this.2⟩
  obtain ⟨e1, e2, e3⟩ := this.1 e
  refine ⟨?_, e3⟩
  rw [← Nat.div_add_mod a v.n1, e1, e2, Nat.div_add_mod]

theorem CV3.fuse01_cov {v : CV3} (h : v.s0 = v.n1 * v.s1) (c : Nat) : v.fuse01.Cov c ↔ v.Cov c := by
  constructor
  · rintro ⟨a, ha, k, hk, e⟩
    have ha : a < v.n0 * v.n1 := ha
    rw [v.fuse01_off' h] at e
    exact ⟨_, div_lt_of_flat ha, _, mod_lt_of_flat ha, k, hk, e⟩
  · rintro ⟨i, hi, j, hj, k, hk, e⟩
    rw [← v.fuse01_off h] at e
    exact ⟨_, flat_lt hi hj, k, hk, e⟩

/-! ## The first two of four axes -/

theorem CV4.fuse01_off (v : CV4) (h : v.s0 = v.n1 * v.s1) (i j k l : Nat) : v.fuse01.off (v.n1 * i + j) k l = v.off i j k l := by
  simp only [CV3.off, CV4.off, CV4.fuse01, h]; ring

theorem CV4.fuse01_off' (v : CV4) (h : v.s0 = v.n1 * v.s1) (a k l : Nat) : v.fuse01.off a k l = v.off (a / v.n1) (a % v.n1) k l := by
  rw [← v.fuse01_off h, Nat.div_add_mod]

theorem CV4.fuse01_has {v : CV4} (h : v.s0 = v.n1 * v.s1) {m : Buf α} {X : Nat → Nat → Nat → Nat → Cx α} (hX : v.Has m X) :
    v.fuse01.Has m (fun a k l => X (a / v.n1) (a % v.n1) k l) := by
  intro a ha k hk l hl
  have ha : a < v.n0 * v.n1 := ha
  rw [v.fuse01_off' h]
  exact hX _ (div_lt_of_flat ha) _ (mod_lt_of_flat ha) k hk l hl

theorem CV4.has_fuse01 {v : CV4} (h : v.s0 = v.n1 * v.s1) {m : Buf α} {Y : Nat → Nat → Nat → Cx α} (hY : v.fuse01.Has m Y) :
    v.Has m (fun i j k l => Y (v.n1 * i + j) k l) := by
  intro i hi j hj k hk l hl
  have := hY (v.n1 * i + j) (flat_lt hi hj) k hk l hl
  rwa [v.fuse01_off h] at this

theorem CV4.fuse01_sep {v : CV4} (h : v.s0 = v.n1 * v.s1) (hs : v.Sep) : v.fuse01.Sep := by
  intro a ha k hk p hp b hb l hl q hq
  have ha : a < v.n0 * v.n1 := ha
  have hb : b < v.n0 * v.n1 := hb
  rw [v.fuse01_off' h, v.fuse01_off' h]
  have := hs _ (div_lt_of_flat ha) _ (mod_lt_of_flat ha) k hk p hp _ (div_lt_of_flat hb) _ (mod_lt_of_flat hb) l hl q hq
  refine ⟨fun e => ?_, this.2⟩
  obtain ⟨e1, e2, e3⟩ := this.1 e
  refine ⟨?_, e3⟩
  rw [← Nat.div_add_mod a v.n1, e1, e2, Nat.div_add_mod]

theorem CV4.fuse01_cov {v : CV4} (h : v.s0 = v.n1 * v.s1) (c : Nat) : v.fuse01.Cov c ↔ v.Cov c := by
  constructor
  · rintro ⟨a, ha, k, hk, l, hl, e⟩
    have ha : a < v.n0 * v.n1 := ha
    rw [v.fuse01_off' h] at e
    exact ⟨_, div_lt_of_flat ha, _, mod_lt_of_flat ha, k, hk, l, hl, e⟩
  · rintro ⟨i, hi, j, hj, k, hk, l, hl, e⟩
    rw [← v.fuse01_off h] at e
    exact ⟨_, flat_lt hi hj, k, hk, l, hl, e⟩

/-! ## The last two of four axes -/

theorem CV4.fuse23_off (v : CV4) (h : v.s2 = v.n3 * v.s3) (i j k l : Nat) : v.fuse23.off i j (v.n3 * k + l) = v.off i j k l := by
  simp only [CV3.off, CV4.off, CV4.fuse23, h]; ring

theorem CV4.fuse23_off' (v : CV4) (h : v.s2 = v.n3 * v.s3) (i j c : Nat) : v.fuse23.off i j c = v.off i j (c / v.n3) (c % v.n3) := by
  rw [← v.fuse23_off h, Nat.div_add_mod]

theorem CV4.fuse23_has {v : CV4} (h : v.s2 = v.n3 * v.s3) {m : Buf α} {X : Nat → Nat → Nat → Nat → Cx α} (hX : v.Has m X) :
    v.fuse23.Has m (fun i j c => X i j (c / v.n3) (c % v.n3)) := by
  intro i hi j hj c hc
  have hc : c < v.n2 * v.n3 := hc
  rw [v.fuse23_off' h]
  exact hX i hi j hj _ (div_lt_of_flat hc) _ (mod_lt_of_flat hc)

theorem CV4.has_fuse23 {v : CV4} (h : v.s2 = v.n3 * v.s3) {m : Buf α} {Y : Nat → Nat → Nat → Cx α} (hY : v.fuse23.Has m Y) :
    v.Has m (fun i j k l => Y i j (v.n3 * k + l)) := by
  intro i hi j hj k hk l hl
  have := hY i hi j hj (v.n3 * k + l) (flat_lt hk hl)
  rwa [v.fuse23_off h] at this

theorem CV4.fuse23_sep {v : CV4} (h : v.s2 = v.n3 * v.s3) (hs : v.Sep) : v.fuse23.Sep := by
  intro i hi j hj a ha k hk l hl b hb
  have ha : a < v.n2 * v.n3 := ha
  have hb : b < v.n2 * v.n3 := hb
  rw [v.fuse23_off' h, v.fuse23_off' h]
  have := hs i hi j hj _ (div_lt_of_flat ha) _ (mod_lt_of_flat ha) k hk l hl _ (div_lt_of_flat hb) _ (mod_lt_of_flat hb)
  refine ⟨fun e => ?_, this.2⟩
  obtain ⟨e1, e2, e3, e4⟩ := this.1 e
  refine ⟨e1, e2, ?_⟩
  rw [← Nat.div_add_mod a v.n3, e3, e4, Nat.div_add_mod]

theorem CV4.fuse23_cov {v : CV4} (h : v.s2 = v.n3 * v.s3) (c : Nat) : v.fuse23.Cov c ↔ v.Cov c := by
  constructor
  · rintro ⟨i, hi, j, hj, a, ha, e⟩
    have ha : a < v.n2 * v.n3 := ha
    rw [v.fuse23_off' h] at e
    exact ⟨i, hi, j, hj, _, div_lt_of_flat ha, _, mod_lt_of_flat ha, e⟩
  · rintro ⟨i, hi, j, hj, k, hk, l, hl, e⟩
    rw [← v.fuse23_off h] at e
    exact ⟨i, hi, j, hj, _, flat_lt hk hl, e⟩

/-! ## Regular matrices as runs of floats -/

theorem CV2.isRegular_iff {v : CV2} : v.isRegular = true ↔ v.arrc = v.arr + 1 ∧ v.s1 = 2 ∧ v.s0 = 2 * v.n1 := by
  simp only [CV2.isRegular, Bool.and_eq_true, decide_eq_true_eq]
  constructor
  · rintro ⟨⟨h1, h2⟩, h3⟩; exact ⟨h1, h2, by rw [h3, h2]⟩
  · rintro ⟨h1, h2, h3⟩; exact ⟨⟨h1, h2⟩, by rw [h3, h2]⟩

/-- Float `k` of a regular matrix: the entry and the part. -/
theorem CV2.reg_float {v : CV2} (h : v.isRegular = true) {k : Nat} (hk : k < v.n0 * v.s0) :
    k / v.s0 < v.n0 ∧ k % v.s0 / 2 < v.n1 ∧
      v.arr + k = (if k % 2 = 0 then v.arr else v.arrc) + v.off (k / v.s0) (k % v.s0 / 2) := by
  obtain ⟨h1, h2, h3⟩ := CV2.isRegular_iff.1 h
  have hpos : 0 < v.s0 := Nat.pos_of_ne_zero fun e => by rw [e, Nat.mul_zero] at hk; omega
  have hm := Nat.mod_lt k hpos
  have hd := Nat.div_add_mod k v.s0
  refine ⟨Nat.div_lt_of_lt_mul (by rwa [Nat.mul_comm] at hk), by omega, ?_⟩
  have e : v.s0 * (k / v.s0) = 2 * (v.n1 * (k / v.s0)) := by rw [← Nat.mul_assoc, ← h3]
  simp only [CV2.off, h1, h2]
  split <;> omega

/-- Adding two regular matrices float by float. -/
theorem CV2.add_fast [Add α] (r x : CV2) (hr : r.isRegular = true) (hx : x.isRegular = true) (hm : r.Match x) (h0 : x.n0 = r.n0)
    (h1 : x.n1 = r.n1) (m0 : Buf α) (R X : Nat → Nat → Cx α) (hR : r.Has m0 R) (hX : x.Has m0 X) :
    ∃ m', stdAdd (· + ·) m0 x.arr (r.n0 * r.s0) r.arr = .ok m' ∧
      r.Has m' (fun i j => R i j + X i j) ∧ ∀ c, ¬ r.Cov c → m' c = m0 c := by
  obtain ⟨r1, r2, r3⟩ := CV2.isRegular_iff.1 hr
  obtain ⟨x1, x2, x3⟩ := CV2.isRegular_iff.1 hx
  have es : x.s0 = r.s0 := by rw [x3, r3, h1]
  obtain ⟨m', g1, g2, g3⟩ := stdAdd_ok (· + ·) m0 x.arr (r.n0 * r.s0) r.arr
    (fun k => if k % 2 = 0 then (R (k / r.s0) (k % r.s0 / 2)).re else (R (k / r.s0) (k % r.s0 / 2)).im)
    (fun k => if k % 2 = 0 then (X (k / r.s0) (k % r.s0 / 2)).re else (X (k / r.s0) (k % r.s0 / 2)).im)
    (by
      intro k hk
      obtain ⟨a, b, c⟩ := CV2.reg_float hr hk
      rw [c]
      have := hR _ a _ b
      split
      · exact this.1
      · exact this.2)
    (by
      intro k hk
      obtain ⟨a, b, c⟩ := CV2.reg_float hx (k := k) (by rw [h0, es]; exact hk)
      rw [c]
      rw [es] at a b ⊢
      have := hX _ a _ b
      split
      · exact this.1
      · exact this.2)
    (by
      intro k hk l hl e
      obtain ⟨a, b, c⟩ := CV2.reg_float hr hk
      obtain ⟨a', b', c'⟩ := CV2.reg_float hx (k := l) (by rw [h0, es]; exact hl)
      rw [c, c'] at e
      have := hm _ a _ b _ a' _ b'
      rw [es] at this e
      have f : k % 2 = l % 2 ∧ k / r.s0 = l / r.s0 ∧ k % r.s0 / 2 = l % r.s0 / 2 := by
        by_cases p : k % 2 = 0 <;> by_cases q : l % 2 = 0
        · rw [if_pos p, if_pos q] at e; exact ⟨by omega, this.1 e⟩
        · rw [if_pos p, if_neg q] at e; exact absurd e this.2.2.1
        · rw [if_neg p, if_pos q] at e; exact absurd e this.2.2.2
        · rw [if_neg p, if_neg q] at e; exact ⟨by omega, this.2.1 e⟩
      have d1 := Nat.div_add_mod k r.s0
      have d2 := Nat.div_add_mod l r.s0
      rw [f.2.1] at d1
      have e1 : k % r.s0 % 2 = k % 2 := Nat.mod_mod_of_dvd k ⟨r.n1, r3⟩
      have e2 : l % r.s0 % 2 = l % 2 := Nat.mod_mod_of_dvd l ⟨r.n1, r3⟩
      omega)
  have key : ∀ i, i < r.n0 → ∀ j, j < r.n1 → ∀ b, b < 2 → r.s0 * i + 2 * j + b < r.n0 * r.s0 ∧
      (r.s0 * i + 2 * j + b) / r.s0 = i ∧ (r.s0 * i + 2 * j + b) % r.s0 / 2 = j ∧ (r.s0 * i + 2 * j + b) % 2 = b := by
    intro i hi j hj b hb
    have hl : 2 * j + b < r.s0 := by omega
    have e : r.s0 * i = 2 * (r.n1 * i) := by rw [← Nat.mul_assoc, ← r3]
    rw [Nat.add_assoc]
    refine ⟨flat_lt hi hl, flat_div hl, ?_, by omega⟩
    rw [flat_mod hl]; omega
  refine ⟨m', g1, ?_, ?_⟩
  · intro i hi j hj
    obtain ⟨a1, a2, a3, a4⟩ := key i hi j hj 0 (by omega)
    obtain ⟨b1, b2, b3, b4⟩ := key i hi j hj 1 (by omega)
    have ga := g2 _ a1
    have gb := g2 _ b1
    rw [a2, a3, a4] at ga
    rw [b2, b3, b4] at gb
    constructor
    · simpa [CV2.off, r2, Cx.add_def] using ga
    · have e : r.arrc + r.off i j = r.arr + (r.s0 * i + 2 * j + 1) := by simp only [CV2.off, r2, r1]; omega
      rw [e]
      simpa [Cx.add_def] using gb
  · intro c hc
    apply g3
    rintro k hk rfl
    obtain ⟨a, b, e⟩ := CV2.reg_float hr hk
    apply hc
    refine ⟨_, a, _, b, ?_⟩
    rw [e]
    split
    · exact .inl rfl
    · exact .inr rfl

end Cnine
