import Verif.Props.CView

/-! # Complex views: views of views, three and four axes, mixing products -/

namespace Cnine

variable {α : Type}

open RV2 CVEx

/-! ## C258: slices, transposes, splitting and inserting axes -/

theorem C258_slices2 (v : CV2) (m : Buf α) (X : Nat → Nat → Cx α) (hX : v.Has m X) :
    (∀ i, i < v.n0 → (v.slice0 i).n0 = v.n1 ∧ (v.slice0 i).Has m (X i)) ∧
    (∀ j, j < v.n1 → (v.slice1 j).n0 = v.n0 ∧ (v.slice1 j).Has m (fun i => X i j)) ∧
    v.transp.n0 = v.n1 ∧ v.transp.n1 = v.n0 ∧ v.transp.Has m (fun i j => X j i) := by
  refine ⟨fun i hi => ⟨rfl, fun j hj => ?_⟩, fun j hj => ⟨rfl, fun i hi => ?_⟩, rfl, rfl, fun j hj i hi => ?_⟩
  · have := hX i hi j hj
    simpa only [CV2.slice0, CV1.off, CV2.off, Nat.add_assoc, Nat.mul_comm] using this
  · have := hX i hi j hj
    simp only [CV2.slice1, CV1.off, CV2.off, Nat.add_assoc, Nat.mul_comm] at this ⊢
    rwa [Nat.add_comm (j * v.s1)]
  · have := hX i hi j hj
    simpa only [CV2.transp, CV2.off, Nat.add_comm] using this

theorem C258_slices3 (v : CV3) (m : Buf α) (X : Nat → Nat → Nat → Cx α) (hX : v.Has m X) :
    (∀ i, i < v.n0 → (v.slice0 i).n0 = v.n1 ∧ (v.slice0 i).n1 = v.n2 ∧ (v.slice0 i).Has m (X i)) ∧
    (∀ j, j < v.n1 → (v.slice1 j).n0 = v.n0 ∧ (v.slice1 j).n1 = v.n2 ∧ (v.slice1 j).Has m (fun i k => X i j k)) ∧
    (∀ k, k < v.n2 → (v.slice2 k).n0 = v.n0 ∧ (v.slice2 k).n1 = v.n1 ∧ (v.slice2 k).Has m (fun i j => X i j k)) := by
  refine ⟨fun i hi => ⟨rfl, rfl, fun j hj k hk => ?_⟩, fun j hj => ⟨rfl, rfl, fun i hi k hk => ?_⟩,
    fun k hk => ⟨rfl, rfl, fun i hi j hj => ?_⟩⟩ <;>
  · have := hX i hi j hj k hk
    simp only [CV3.slice0, CV3.slice1, CV3.slice2, CV2.off, CV3.off] at this ⊢
    constructor
    · rw [← this.1]; congr 1; ring
    · rw [← this.2]; congr 1; ring

theorem C258_slices4 (v : CV4) (m : Buf α) (X : Nat → Nat → Nat → Nat → Cx α) (hX : v.Has m X) :
    (∀ i, i < v.n0 → (v.slice0 i).n0 = v.n1 ∧ (v.slice0 i).n1 = v.n2 ∧ (v.slice0 i).n2 = v.n3 ∧ (v.slice0 i).Has m (X i)) ∧
    (∀ j, j < v.n1 → (v.slice1 j).n0 = v.n0 ∧ (v.slice1 j).n1 = v.n2 ∧ (v.slice1 j).n2 = v.n3 ∧
      (v.slice1 j).Has m (fun i k l => X i j k l)) ∧
    (∀ k, k < v.n2 → (v.slice2 k).n0 = v.n0 ∧ (v.slice2 k).n1 = v.n1 ∧ (v.slice2 k).n2 = v.n3 ∧
      (v.slice2 k).Has m (fun i j l => X i j k l)) ∧
    (∀ l, l < v.n3 → (v.slice3 l).n0 = v.n0 ∧ (v.slice3 l).n1 = v.n1 ∧ (v.slice3 l).n2 = v.n2 ∧
      (v.slice3 l).Has m (fun i j k => X i j k l)) := by
  refine ⟨fun i hi => ⟨rfl, rfl, rfl, fun j hj k hk l hl => ?_⟩, fun j hj => ⟨rfl, rfl, rfl, fun i hi k hk l hl => ?_⟩,
    fun k hk => ⟨rfl, rfl, rfl, fun i hi j hj l hl => ?_⟩, fun l hl => ⟨rfl, rfl, rfl, fun i hi j hj k hk => ?_⟩⟩ <;>
  · have := hX i hi j hj k hk l hl
    simp only [CV4.slice0, CV4.slice1, CV4.slice2, CV4.slice3, CV3.off, CV4.off] at this ⊢
    constructor
    · rw [← this.1]; congr 1; ring
    · rw [← this.2]; congr 1; ring

theorem C258_split0 (x : CV1) (i j : Nat) (m : Buf α) (X : Nat → Cx α) (hX : x.Has m X) :
    if i * j = x.n0 then ∃ w, CV2.split0 x i j = .ok w ∧ w.n0 = i ∧ w.n1 = j ∧ w.Has m (fun a b => X (j * a + b))
    else CV2.split0 x i j = .throw := by
  split
  case isTrue h =>
    refine ⟨⟨x.arr, x.arrc, i, j, x.s0 * j, x.s0⟩, by simp only [CV2.split0, h, decide_true, Res.assrt_true, Res.ok_bind], rfl, rfl, ?_⟩
    intro a ha b hb
    have := hX (j * a + b) (h ▸ flat_lt ha hb)
    simp only [CV2.off, CV1.off] at this ⊢
    constructor
    · rw [← this.1]; congr 1; ring
    · rw [← this.2]; congr 1; ring
  case isFalse h => simp [CV2.split0, h]

theorem C258_unsqueeze (x : CV1) (y : CV2) (m : Buf α) (X : Nat → Cx α) (Y : Nat → Nat → Cx α) (hX : x.Has m X) (hY : y.Has m Y) :
    ((CV2.unsqueeze0 x).n0 = 1 ∧ (CV2.unsqueeze0 x).n1 = x.n0 ∧ (CV2.unsqueeze0 x).Has m (fun _ i => X i)) ∧
    ((CV2.unsqueeze1 x).n0 = x.n0 ∧ (CV2.unsqueeze1 x).n1 = 1 ∧ (CV2.unsqueeze1 x).Has m (fun i _ => X i)) ∧
    ((CV3.unsqueeze0 y).n0 = 1 ∧ (CV3.unsqueeze0 y).n1 = y.n0 ∧ (CV3.unsqueeze0 y).n2 = y.n1 ∧
      (CV3.unsqueeze0 y).Has m (fun _ i j => Y i j)) ∧
    ((CV3.unsqueeze2 y).n0 = y.n0 ∧ (CV3.unsqueeze2 y).n1 = y.n1 ∧ (CV3.unsqueeze2 y).n2 = 1 ∧
      (CV3.unsqueeze2 y).Has m (fun i j _ => Y i j)) := by
  refine ⟨⟨rfl, rfl, ?_⟩, ⟨rfl, rfl, ?_⟩, ⟨rfl, rfl, rfl, ?_⟩, rfl, rfl, rfl, ?_⟩
  · intro a ha i hi
    have ha : a < 1 := ha
    obtain rfl : a = 0 := by omega
    simpa [CV2.unsqueeze0, CV2.off, CV1.off] using hX i hi
  · intro i hi a ha
    have ha : a < 1 := ha
    obtain rfl : a = 0 := by omega
    simpa [CV2.unsqueeze1, CV2.off, CV1.off] using hX i hi
  · intro a ha i hi j hj
    have ha : a < 1 := ha
    obtain rfl : a = 0 := by omega
    simpa [CV3.unsqueeze0, CV3.off, CV2.off] using hY i hi j hj
  · intro i hi j hj a ha
    have ha : a < 1 := ha
    obtain rfl : a = 0 := by omega
    simpa [CV3.unsqueeze2, CV3.off, CV2.off] using hY i hi j hj

/-- A 2×2×2 view in cells 0–15, parts interleaved, and a 1×2×1×2 view in cells 16–23. -/
def CVEx.T : CV3 := ⟨0, 1, 2, 2, 2, 8, 4, 2⟩
def CVEx.U : CV4 := ⟨16, 17, 1, 2, 1, 2, 8, 4, 4, 2⟩

example : C.Has m0 entC ∧ T.Has m0 (fun i j k => ent 0 (4 * i + 2 * j + k)) ∧ U.Has m0 (fun _ j _ l => ent 16 (2 * j + l)) ∧
    (⟨0, 1, 8, 2⟩ : CV1).Has m0 (ent 0) ∧ 4 * 2 = (⟨0, 1, 8, 2⟩ : CV1).n0 ∧ 3 * 3 ≠ (⟨0, 1, 8, 2⟩ : CV1).n0 := by decide

/-! ## C259: fusing two axes -/

/-- Fused axes list the entries in order if the outer stride is that of the inner axis times its length; this is not checked, see
`C259_fuse_fails`. -/
theorem C259_fuse_partial (v : CV3) (w : CV4) (m : Buf α) (X : Nat → Nat → Nat → Cx α) (Y : Nat → Nat → Nat → Nat → Cx α)
    (hX : v.Has m X) (hY : w.Has m Y) :
    (v.s0 = v.n1 * v.s1 → v.fuse01.n0 = v.n0 * v.n1 ∧ v.fuse01.n1 = v.n2 ∧
      v.fuse01.Has m (fun a k => X (a / v.n1) (a % v.n1) k)) ∧
    (v.s1 = v.n2 * v.s2 → v.fuse12.n0 = v.n0 ∧ v.fuse12.n1 = v.n1 * v.n2 ∧
      v.fuse12.Has m (fun i a => X i (a / v.n2) (a % v.n2))) ∧
    (w.s0 = w.n1 * w.s1 → w.fuse01.n0 = w.n0 * w.n1 ∧ w.fuse01.n1 = w.n2 ∧ w.fuse01.n2 = w.n3 ∧
      w.fuse01.Has m (fun a k l => Y (a / w.n1) (a % w.n1) k l)) ∧
    (w.s1 = w.n2 * w.s2 → w.fuse12.n0 = w.n0 ∧ w.fuse12.n1 = w.n1 * w.n2 ∧ w.fuse12.n2 = w.n3 ∧
      w.fuse12.Has m (fun i a l => Y i (a / w.n2) (a % w.n2) l)) ∧
    (w.s2 = w.n3 * w.s3 → w.fuse23.n0 = w.n0 ∧ w.fuse23.n1 = w.n1 ∧ w.fuse23.n2 = w.n2 * w.n3 ∧
      w.fuse23.Has m (fun i j a => Y i j (a / w.n3) (a % w.n3))) := by
  refine ⟨fun h => ⟨rfl, rfl, CV3.fuse01_has h hX⟩, fun h => ⟨rfl, rfl, ?_⟩, fun h => ⟨rfl, rfl, rfl, CV4.fuse01_has h hY⟩,
    fun h => ⟨rfl, rfl, rfl, ?_⟩, fun h => ⟨rfl, rfl, rfl, CV4.fuse23_has h hY⟩⟩
  · intro i hi a ha
    have ha : a < v.n1 * v.n2 := ha
    have := hX i hi _ (div_lt_of_flat ha) _ (mod_lt_of_flat ha)
    have e : v.fuse12.off i a = v.off i (a / v.n2) (a % v.n2) := by
      conv_lhs => rw [← Nat.div_add_mod a v.n2]
      simp only [CV2.off, CV3.off, CV3.fuse12, h]; ring
    rw [e]; exact this
  · intro i hi a ha l hl
    have ha : a < w.n1 * w.n2 := ha
    have := hY i hi _ (div_lt_of_flat ha) _ (mod_lt_of_flat ha) l hl
    have e : w.fuse12.off i a l = w.off i (a / w.n2) (a % w.n2) l := by
      conv_lhs => rw [← Nat.div_add_mod a w.n2]
      simp only [CV3.off, CV4.off, CV4.fuse12, h]; ring
    rw [e]; exact this

/-- Without a check, the fused view of a 2×1×1 part of a larger tensor has a cell between its two entries; and fusing the axes of a
2×2 matrix gives a vector of eight entries. -/
theorem C259_fuse_fails :
    ((⟨0, 1, 2, 1, 1, 8, 4, 2⟩ : CV3).Has m0 (fun i _ _ => ent 0 (4 * i)) ∧ ¬ (⟨0, 1, 2, 1, 1, 8, 4, 2⟩ : CV3).fuse01.Has m0 (fun a _ => ent 0 (4 * a))) ∧
    A.fuse01.n0 = 8 ∧ A.n0 * A.n1 = 4 := by decide

example : T.s0 = T.n1 * T.s1 ∧ T.s1 = T.n2 * T.s2 ∧ T.Has m0 (fun i j k => ent 0 (4 * i + 2 * j + k)) ∧
    U.s0 = U.n1 * U.s1 ∧ U.s1 = U.n2 * U.s2 ∧ U.s2 = U.n3 * U.s3 := by decide

/-! ## C260: inserting an axis in the middle -/

/-- Right for matrices of at most one row, and for those whose two strides agree. -/
theorem C260_unsqueeze1_partial (y : CV2) (m : Buf α) (Y : Nat → Nat → Cx α) (hY : y.Has m Y) (h : y.n0 ≤ 1 ∨ y.s0 = y.s1) :
    (CV3.unsqueeze1 y).n0 = y.n0 ∧ (CV3.unsqueeze1 y).n1 = 1 ∧ (CV3.unsqueeze1 y).n2 = y.n1 ∧
      (CV3.unsqueeze1 y).Has m (fun i _ j => Y i j) := by
  refine ⟨rfl, rfl, rfl, ?_⟩
  intro i hi a ha j hj
  have ha : a < 1 := ha
  have hi : i < y.n0 := hi
  obtain rfl : a = 0 := by omega
  rcases h with h | h
  · obtain rfl : i = 0 := by omega
    simpa [CV3.unsqueeze1, CV3.off, CV2.off] using hY 0 hi j hj
  · simpa [CV3.unsqueeze1, CV3.off, CV2.off, h] using hY i hi j hj

/-- The first stride of the new view is the second stride of the matrix. -/
theorem C260_unsqueeze1_fails : A.Has m0 (fun i j => ent 0 (2 * i + j)) ∧
    ¬ (CV3.unsqueeze1 A).Has m0 (fun i _ j => ent 0 (2 * i + j)) := by decide

example : (⟨0, 1, 1, 4, 8, 2⟩ : CV2).Has m0 (fun _ j => ent 0 j) ∧ (⟨0, 1, 1, 4, 8, 2⟩ : CV2).n0 ≤ 1 := by decide

/-! ## C261, C262: sums of views with three axes -/

theorem CV3.isRegular_iff {v : CV3} : v.isRegular = true ↔ v.arrc = v.arr + 1 ∧ v.s2 = 2 ∧ v.s1 = 2 * v.n2 ∧ v.s0 = v.s1 * v.n1 := by
  simp only [CV3.isRegular, Bool.and_eq_true, decide_eq_true_eq]
  constructor
  · rintro ⟨⟨⟨h1, h2⟩, h3⟩, h4⟩; exact ⟨h1, h2, by rw [h3, h2], h4⟩
  · rintro ⟨h1, h2, h3, h4⟩; exact ⟨⟨⟨h1, h2⟩, by rw [h3, h2]⟩, h4⟩

theorem C261_add [Add α] (r x : CV3) (hs : r.Sep) (hm : r.Match x) (h0 : x.n0 = r.n0) (h1 : x.n1 = r.n1) (h2 : x.n2 = r.n2)
    (m : Buf α) (R X : Nat → Nat → Nat → Cx α) (hR : r.Has m R) (hX : x.Has m X) :
    ∃ m', r.add x m = .ok m' ∧ r.Has m' (fun i j k => R i j k + X i j k) ∧ ∀ c, ¬ r.Cov c → m' c = m c := by
  simp only [CV3.add, h0, h1, h2, decide_true, Res.assrt_true, Res.ok_bind]
  split
  case isTrue hz =>
    refine ⟨m, rfl, ?_, fun _ _ => rfl⟩
    intro i hi j hj
    rcases Nat.mul_eq_zero.1 hz with e | e <;> omega
  case isFalse hz =>
    split
    case isTrue hreg =>
      simp only [Bool.and_eq_true] at hreg
      obtain ⟨r1, r2, r3, r4⟩ := CV3.isRegular_iff.1 hreg.1
      obtain ⟨x1, x2, x3, x4⟩ := CV3.isRegular_iff.1 hreg.2
      have er : r.s0 = r.n1 * r.s1 := by rw [r4, Nat.mul_comm]
      have ex : x.s0 = x.n1 * x.s1 := by rw [x4, Nat.mul_comm]
      have fr : r.fuse01.isRegular = true := CV2.isRegular_iff.2 ⟨r1, r2, r3⟩
      have fx : x.fuse01.isRegular = true := CV2.isRegular_iff.2 ⟨x1, x2, x3⟩
      have fm : r.fuse01.Match x.fuse01 := by
        intro a ha k hk b hb l hl
        have ha : a < r.n0 * r.n1 := ha
        have hb : b < x.n0 * x.n1 := hb
        rw [r.fuse01_off' er, x.fuse01_off' ex]
        have := hm _ (div_lt_of_flat ha) _ (mod_lt_of_flat ha) k hk _ (div_lt_of_flat hb) _ (mod_lt_of_flat hb) l hl
        have f : a / r.n1 = b / x.n1 ∧ a % r.n1 = b % x.n1 ∧ k = l → a = b ∧ k = l := by
          rintro ⟨e1, e2, e3⟩
          refine ⟨?_, e3⟩
          rw [← Nat.div_add_mod a r.n1, e1, e2, ← h1, Nat.div_add_mod]
        exact ⟨fun e => f (this.1 e), fun e => f (this.2.1 e), this.2.2⟩
      obtain ⟨m', g1, g2, g3⟩ := CV2.add_fast r.fuse01 x.fuse01 fr fx fm (show x.n0 * x.n1 = r.n0 * r.n1 by rw [h0, h1]) h2 m _ _
        (CV3.fuse01_has er hR) (CV3.fuse01_has ex hX)
      have e : r.n0 * r.s0 = r.fuse01.n0 * r.fuse01.s0 := by show _ = r.n0 * r.n1 * r.s1; rw [er, Nat.mul_assoc]
      rw [e]
      refine ⟨m', g1, (CV3.has_fuse01 er g2).congr ?_, fun c hc => g3 c fun h => hc ((CV3.fuse01_cov er c).1 h)⟩
      intro i hi j hj k hk
      simp only [h1, flat_div hj, flat_mod hj]
    case isFalse hreg => exact CV3.add_run r x hs hm h0 h1 h2 m R X hR hX

/-- Regular and not. -/
example : T.Sep ∧ T.Match T ∧ T.isRegular = true ∧ T.Has m0 (fun i j k => ent 0 (4 * i + 2 * j + k)) ∧
    (⟨0, 1, 2, 2, 1, 4, 2, 2⟩ : CV3).Sep ∧ (⟨0, 1, 2, 2, 1, 4, 2, 2⟩ : CV3).Match ⟨16, 20, 2, 2, 1, 1, 2, 1⟩ ∧
    (⟨16, 20, 2, 2, 1, 1, 2, 1⟩ : CV3).isRegular = false ∧ (⟨16, 20, 2, 2, 1, 1, 2, 1⟩ : CV3).Has m0 (fun i j _ => entC i j) := by decide

/-- Different first or second sizes are refused; the third size is not compared, see `C262_sizes_fails`. -/
theorem C262_sizes_partial [Add α] (r x : CV3) (m : Buf α) (h : ¬ (x.n0 = r.n0 ∧ x.n1 = r.n1)) : r.add x m = .throw := by
  by_cases h0 : x.n0 = r.n0
  · have h1 : x.n1 ≠ r.n1 := fun e => h ⟨h0, e⟩
    simp [CV3.add, h0, h1]
  · simp [CV3.add, h0]

/-- A 1×1×2 view added to a 1×1×1 view: the second entry is lost if both are regular, and is added to the cells behind the result
otherwise. -/
theorem C262_sizes_fails :
    (∃ m', (⟨0, 1, 1, 1, 1, 2, 2, 2⟩ : CV3).add ⟨4, 5, 1, 1, 2, 4, 4, 2⟩ m0 = .ok m' ∧ m' 0 = some 4 ∧ m' 1 = some 1 ∧ m' 2 = some 0) ∧
    (∃ m', (⟨0, 1, 1, 1, 1, 2, 2, 2⟩ : CV3).add ⟨4, 5, 1, 1, 2, 8, 8, 2⟩ m0 = .ok m' ∧ m0 2 = some 0 ∧ m' 2 = some 2 ∧
      ¬ (⟨0, 1, 1, 1, 1, 2, 2, 2⟩ : CV3).Cov 2) := by
  refine ⟨⟨_, rfl, rfl, rfl, rfl⟩, ⟨_, rfl, rfl, rfl, ?_⟩⟩
  rintro ⟨i, hi, j, hj, k, hk, e⟩
  simp only [CV3.off] at *
  omega

example : ¬ (T.n0 = 2 ∧ T.n1 = 3) := by decide

/-! ## C263: mixing the middle axis -/

theorem C263_mix10 [Ring α] (r x : CV3) (y : CV2) (hs : r.Sep) (hx : ∀ c, r.Cov c → ¬ x.Cov c) (hy : ∀ c, r.Cov c → ¬ y.Cov c)
    (m : Buf α) (R X : Nat → Nat → Nat → Cx α) (Y : Nat → Nat → Cx α) (hR : r.Has m R) (hX : x.Has m X) (hY : y.Has m Y) :
    if y.n0 = x.n1 ∧ x.n0 = r.n0 ∧ y.n1 = r.n1 ∧ x.n2 = r.n2 then
      ∃ m', r.addMix10 x y m = .ok m' ∧
        r.Has m' (fun a b c => R a b c + ((List.range x.n1).map fun i => X a i c * Y i b).sum) ∧ ∀ c, ¬ r.Cov c → m' c = m c
    else r.addMix10 x y m = .throw := by
  split
  case isTrue h =>
    obtain ⟨h0, h1, h2, h3⟩ := h
    simp only [CV3.addMix10, h0, h1, h2, h3, decide_true, Res.assrt_true, Res.ok_bind]
    apply CV3.prod_run r hs m R hR x.n1 (fun a b c i m => do let u ← x.get a i c m; let v ← y.get i b m; .ok (u * v))
    intro a ha b hb c hc i hi m' hm'
    rw [CV3.get_apart hX hx hm' (h1 ▸ ha) hi (h3 ▸ hc), Res.ok_bind, CV2.get_apart hY hy hm' (h0 ▸ hi) (h2 ▸ hb), Res.ok_bind]
  case isFalse h =>
    simp only [CV3.addMix10]
    by_cases h0 : y.n0 = x.n1
    · by_cases h1 : x.n0 = r.n0
      · by_cases h2 : y.n1 = r.n1
        · have h3 : x.n2 ≠ r.n2 := fun e => h ⟨h0, h1, h2, e⟩
          simp [h0, h1, h2, h3]
        · simp [h0, h1, h2]
      · simp [h0, h1]
    · simp [h0]

theorem C263_mix1H [Ring α] (r x : CV3) (y : CV2) (hs : r.Sep) (hx : ∀ c, r.Cov c → ¬ x.Cov c) (hy : ∀ c, r.Cov c → ¬ y.Cov c)
    (m : Buf α) (R X : Nat → Nat → Nat → Cx α) (Y : Nat → Nat → Cx α) (hR : r.Has m R) (hX : x.Has m X) (hY : y.Has m Y) :
    if y.n1 = x.n1 ∧ x.n0 = r.n0 ∧ y.n0 = r.n1 ∧ x.n2 = r.n2 then
      ∃ m', r.addMix1H x y m = .ok m' ∧
        r.Has m' (fun a b c => R a b c + ((List.range x.n1).map fun i => X a i c * (Y b i).conj).sum) ∧ ∀ c, ¬ r.Cov c → m' c = m c
    else r.addMix1H x y m = .throw := by
  split
  case isTrue h =>
    obtain ⟨h0, h1, h2, h3⟩ := h
    simp only [CV3.addMix1H, h0, h1, h2, h3, decide_true, Res.assrt_true, Res.ok_bind]
    apply CV3.prod_run r hs m R hR x.n1 (fun a b c i m => do let u ← x.get a i c m; let v ← y.get b i m; .ok (u * v.conj))
    intro a ha b hb c hc i hi m' hm'
    rw [CV3.get_apart hX hx hm' (h1 ▸ ha) hi (h3 ▸ hc), Res.ok_bind, CV2.get_apart hY hy hm' (h2 ▸ hb) (h0 ▸ hi), Res.ok_bind]
  case isFalse h =>
    simp only [CV3.addMix1H]
    by_cases h0 : y.n1 = x.n1
    · by_cases h1 : x.n0 = r.n0
      · by_cases h2 : y.n0 = r.n1
        · have h3 : x.n2 ≠ r.n2 := fun e => h ⟨h0, h1, h2, e⟩
          simp [h0, h1, h2, h3]
        · simp [h0, h1, h2]
      · simp [h0, h1]
    · simp [h0]

/-- A 1×2×2 view (cells 0–7), another (cells 8–15), a 2×2 matrix (cells 16–23). -/
example : (⟨0, 1, 1, 2, 2, 8, 4, 2⟩ : CV3).Sep ∧ (⟨0, 1, 1, 2, 2, 8, 4, 2⟩ : CV3).Has m0 (fun _ j k => ent 0 (2 * j + k)) ∧
    (⟨8, 9, 1, 2, 2, 8, 4, 2⟩ : CV3).Has m0 (fun _ j k => ent 8 (2 * j + k)) ∧ C.Has m0 entC ∧ C.n0 = 2 ∧ C.n1 = 2 := by decide

example : (∀ c, (⟨0, 1, 1, 2, 2, 8, 4, 2⟩ : CV3).Cov c → ¬ (⟨8, 9, 1, 2, 2, 8, 4, 2⟩ : CV3).Cov c) ∧
    ∀ c, (⟨0, 1, 1, 2, 2, 8, 4, 2⟩ : CV3).Cov c → ¬ C.Cov c := by
  constructor
  · rintro c ⟨i, hi, j, hj, k, hk, e⟩ ⟨i', hi', j', hj', k', hk', f⟩
    simp only [CV3.off] at *
    omega
  · rintro c ⟨i, hi, j, hj, k, hk, e⟩ ⟨i', hi', j', hj', f⟩
    simp only [CV3.off, CV2.off, C] at *
    omega

/-! ## C264, C265: mixing the last axis -/

theorem C264_mix20 [Ring α] (r x : CV3) (y : CV2) (hs : r.Sep) (hx : ∀ c, r.Cov c → ¬ x.Cov c) (hy : ∀ c, r.Cov c → ¬ y.Cov c)
    (fr : r.s0 = r.n1 * r.s1) (fx : x.s0 = x.n1 * x.s1) (h0 : x.n0 = r.n0) (h1 : x.n1 = r.n1) (h2 : y.n0 = x.n2) (h3 : y.n1 = r.n2)
    (m : Buf α) (R X : Nat → Nat → Nat → Cx α) (Y : Nat → Nat → Cx α) (hR : r.Has m R) (hX : x.Has m X) (hY : y.Has m Y) :
    ∃ m', r.addMix20 x y m = .ok m' ∧
      r.Has m' (fun a b c => R a b c + ((List.range x.n2).map fun i => X a b i * Y i c).sum) ∧ ∀ c, ¬ r.Cov c → m' c = m c := by
  obtain ⟨m', g1, g2, g3⟩ := C256_AA r.fuse01 x.fuse01 y (CV3.fuse01_sep fr hs)
    (fun c hc h => hx c ((CV3.fuse01_cov fr c).1 hc) ((CV3.fuse01_cov fx c).1 h))
    (fun c hc h => hy c ((CV3.fuse01_cov fr c).1 hc) h) (show x.n0 * x.n1 = r.n0 * r.n1 by rw [h0, h1]) h3 h2 m _ _ _
    (CV3.fuse01_has fr hR) (CV3.fuse01_has fx hX) hY
  refine ⟨m', g1, (CV3.has_fuse01 fr g2).congr ?_, fun c hc => g3 c fun h => hc ((CV3.fuse01_cov fr c).1 h)⟩
  intro i hi j hj k hk
  simp only [h1, flat_div hj, flat_mod hj]
  rfl

theorem C264_mix2H [Ring α] (r x : CV3) (y : CV2) (hs : r.Sep) (hx : ∀ c, r.Cov c → ¬ x.Cov c) (hy : ∀ c, r.Cov c → ¬ y.Cov c)
    (fr : r.s0 = r.n1 * r.s1) (fx : x.s0 = x.n1 * x.s1) (h0 : x.n0 = r.n0) (h1 : x.n1 = r.n1) (h2 : y.n1 = x.n2) (h3 : y.n0 = r.n2)
    (m : Buf α) (R X : Nat → Nat → Nat → Cx α) (Y : Nat → Nat → Cx α) (hR : r.Has m R) (hX : x.Has m X) (hY : y.Has m Y) :
    ∃ m', r.addMix2H x y m = .ok m' ∧
      r.Has m' (fun a b c => R a b c + ((List.range x.n2).map fun i => X a b i * (Y c i).conj).sum) ∧ ∀ c, ¬ r.Cov c → m' c = m c := by
  obtain ⟨m', g1, g2, g3⟩ := C256_AH r.fuse01 x.fuse01 y (CV3.fuse01_sep fr hs)
    (fun c hc h => hx c ((CV3.fuse01_cov fr c).1 hc) ((CV3.fuse01_cov fx c).1 h))
    (fun c hc h => hy c ((CV3.fuse01_cov fr c).1 hc) h) (show x.n0 * x.n1 = r.n0 * r.n1 by rw [h0, h1]) h3 h2 m _ _ _
    (CV3.fuse01_has fr hR) (CV3.fuse01_has fx hX) hY
  refine ⟨m', g1, (CV3.has_fuse01 fr g2).congr ?_, fun c hc => g3 c fun h => hc ((CV3.fuse01_cov fr c).1 h)⟩
  intro i hi j hj k hk
  simp only [h1, flat_div hj, flat_mod hj]
  rfl

example : (⟨0, 1, 1, 2, 2, 8, 4, 2⟩ : CV3).s0 = (⟨0, 1, 1, 2, 2, 8, 4, 2⟩ : CV3).n1 * (⟨0, 1, 1, 2, 2, 8, 4, 2⟩ : CV3).s1 ∧
    C.n0 = (⟨8, 9, 1, 2, 2, 8, 4, 2⟩ : CV3).n2 ∧ C.n1 = (⟨0, 1, 1, 2, 2, 8, 4, 2⟩ : CV3).n2 := by decide

/-- Nothing is written outside the fused view of the result. -/
theorem C265_mix2_partial [Ring α] (r x : CV3) (y : CV2) (hs : r.fuse01.Sep) (hx : ∀ c, r.fuse01.Cov c → ¬ x.fuse01.Cov c)
    (hy : ∀ c, r.fuse01.Cov c → ¬ y.Cov c) (h0 : x.n0 * x.n1 = r.n0 * r.n1) (h2 : y.n0 = x.n2) (h3 : y.n1 = r.n2)
    (m : Buf α) (R X Y : Nat → Nat → Cx α) (hR : r.fuse01.Has m R) (hX : x.fuse01.Has m X) (hY : y.Has m Y) :
    ∃ m', r.addMix20 x y m = .ok m' ∧
      r.fuse01.Has m' (fun a c => R a c + ((List.range x.n2).map fun i => X a i * Y i c).sum) ∧ ∀ c, ¬ r.fuse01.Cov c → m' c = m c :=
  C256_AA r.fuse01 x.fuse01 y hs hx hy h0 h3 h2 m R X Y hR hX hY

/-- `r` is every second 1×1 block of a larger tensor (cells 0,1 and 4,5); `x` is dense (cells 8–11) and `y` is the number 1.  The sum for
the second block lands in cells 2 and 3, outside `r`.  A 2×1×1 argument is accepted for a 1×2×1 result. -/
theorem C265_mix2_fails :
    (∃ m', (⟨0, 1, 2, 1, 1, 4, 2, 2⟩ : CV3).addMix20 ⟨8, 9, 2, 1, 1, 2, 2, 2⟩ ⟨12, 13, 1, 1, 2, 2⟩
      (Buf.ofList ([0, 0, 0, 0, 0, 0, 0, 0, 5, 0, 7, 0, 1, 0] : List Int)) = .ok m' ∧
      m' 4 = some 0 ∧ m' 2 = some 7 ∧ ¬ (⟨0, 1, 2, 1, 1, 4, 2, 2⟩ : CV3).Cov 2) ∧
    (∃ m', (⟨0, 1, 1, 2, 1, 4, 2, 2⟩ : CV3).addMix2H ⟨8, 9, 2, 1, 1, 2, 2, 2⟩ ⟨12, 13, 1, 1, 2, 2⟩
      (Buf.ofList ([0, 0, 0, 0, 0, 0, 0, 0, 5, 0, 7, 0, 1, 0] : List Int)) = .ok m' ∧ m' 2 = some 7) := by
  refine ⟨⟨_, rfl, rfl, rfl, ?_⟩, ⟨_, rfl, rfl⟩⟩
  rintro ⟨i, hi, j, hj, k, hk, e⟩
  simp only [CV3.off] at *
  omega

example : (⟨0, 1, 2, 1, 1, 4, 2, 2⟩ : CV3).fuse01.Sep ∧ (⟨8, 9, 2, 1, 1, 2, 2, 2⟩ : CV3).fuse01.Sep := by decide

/-! ## C266: four axes -/

theorem C266_mix1 [Ring α] (r x : CV4) (y : CV2) (hs : r.Sep) (hx : ∀ c, r.Cov c → ¬ x.Cov c) (hy : ∀ c, r.Cov c → ¬ y.Cov c)
    (fr : r.s2 = r.n3 * r.s3) (fx : x.s2 = x.n3 * x.s3) (h0 : x.n0 = r.n0) (h2 : x.n2 = r.n2) (h3 : x.n3 = r.n3)
    (m : Buf α) (R X : Nat → Nat → Nat → Nat → Cx α) (Y : Nat → Nat → Cx α) (hR : r.Has m R) (hX : x.Has m X) (hY : y.Has m Y) :
    (y.n0 = x.n1 → y.n1 = r.n1 → ∃ m', r.addMix10 x y m = .ok m' ∧
      r.Has m' (fun a e c d => R a e c d + ((List.range x.n1).map fun b => X a b c d * Y b e).sum) ∧ ∀ c, ¬ r.Cov c → m' c = m c) ∧
    (y.n1 = x.n1 → y.n0 = r.n1 → ∃ m', r.addMix1H x y m = .ok m' ∧
      r.Has m' (fun a e c d => R a e c d + ((List.range x.n1).map fun b => X a b c d * (Y e b).conj).sum) ∧
      ∀ c, ¬ r.Cov c → m' c = m c) := by
  have e2 : x.fuse23.n2 = r.fuse23.n2 := by show x.n2 * x.n3 = r.n2 * r.n3; rw [h2, h3]
  have ax : ∀ c, r.fuse23.Cov c → ¬ x.fuse23.Cov c := fun c hc h => hx c ((CV4.fuse23_cov fr c).1 hc) ((CV4.fuse23_cov fx c).1 h)
  have ay : ∀ c, r.fuse23.Cov c → ¬ y.Cov c := fun c hc h => hy c ((CV4.fuse23_cov fr c).1 hc) h
  constructor
  · intro h4 h5
    have := C263_mix10 r.fuse23 x.fuse23 y (CV4.fuse23_sep fr hs) ax ay m _ _ _ (CV4.fuse23_has fr hR) (CV4.fuse23_has fx hX) hY
    rw [if_pos ⟨h4, h0, h5, e2⟩] at this
    obtain ⟨m', g1, g2, g3⟩ := this
    refine ⟨m', g1, (CV4.has_fuse23 fr g2).congr ?_, fun c hc => g3 c fun h => hc ((CV4.fuse23_cov fr c).1 h)⟩
    intro i hi j hj k hk l hl
    simp only [h3, flat_div hl, flat_mod hl]
    rfl
  · intro h4 h5
    have := C263_mix1H r.fuse23 x.fuse23 y (CV4.fuse23_sep fr hs) ax ay m _ _ _ (CV4.fuse23_has fr hR) (CV4.fuse23_has fx hX) hY
    rw [if_pos ⟨h4, h0, h5, e2⟩] at this
    obtain ⟨m', g1, g2, g3⟩ := this
    refine ⟨m', g1, (CV4.has_fuse23 fr g2).congr ?_, fun c hc => g3 c fun h => hc ((CV4.fuse23_cov fr c).1 h)⟩
    intro i hi j hj k hk l hl
    simp only [h3, flat_div hl, flat_mod hl]
    rfl

theorem C266_mix3 [Ring α] (r x : CV4) (y : CV2) (hs : r.Sep) (hx : ∀ c, r.Cov c → ¬ x.Cov c) (hy : ∀ c, r.Cov c → ¬ y.Cov c)
    (fr : r.s0 = r.n1 * r.s1) (fr' : r.s1 = r.n2 * r.s2) (fx : x.s0 = x.n1 * x.s1) (fx' : x.s1 = x.n2 * x.s2)
    (h0 : x.n0 = r.n0) (h1 : x.n1 = r.n1) (h2 : x.n2 = r.n2)
    (m : Buf α) (R X : Nat → Nat → Nat → Nat → Cx α) (Y : Nat → Nat → Cx α) (hR : r.Has m R) (hX : x.Has m X) (hY : y.Has m Y) :
    (y.n0 = x.n3 → y.n1 = r.n3 → ∃ m', r.addMix30 x y m = .ok m' ∧
      r.Has m' (fun a b c e => R a b c e + ((List.range x.n3).map fun d => X a b c d * Y d e).sum) ∧ ∀ c, ¬ r.Cov c → m' c = m c) ∧
    (y.n1 = x.n3 → y.n0 = r.n3 → ∃ m', r.addMix3H x y m = .ok m' ∧
      r.Has m' (fun a b c e => R a b c e + ((List.range x.n3).map fun d => X a b c d * (Y e d).conj).sum) ∧
      ∀ c, ¬ r.Cov c → m' c = m c) := by
  have e0 : x.fuse01.n0 = r.fuse01.n0 := by show x.n0 * x.n1 = r.n0 * r.n1; rw [h0, h1]
  have ax : ∀ c, r.fuse01.Cov c → ¬ x.fuse01.Cov c := fun c hc h => hx c ((CV4.fuse01_cov fr c).1 hc) ((CV4.fuse01_cov fx c).1 h)
  have ay : ∀ c, r.fuse01.Cov c → ¬ y.Cov c := fun c hc h => hy c ((CV4.fuse01_cov fr c).1 hc) h
  constructor
  · intro h4 h5
    obtain ⟨m', g1, g2, g3⟩ := C264_mix20 r.fuse01 x.fuse01 y (CV4.fuse01_sep fr hs) ax ay fr' fx' e0 h2 h4 h5 m _ _ _
      (CV4.fuse01_has fr hR) (CV4.fuse01_has fx hX) hY
    refine ⟨m', g1, (CV4.has_fuse01 fr g2).congr ?_, fun c hc => g3 c fun h => hc ((CV4.fuse01_cov fr c).1 h)⟩
    intro i hi j hj k hk l hl
    simp only [h1, flat_div hj, flat_mod hj]
    rfl
  · intro h4 h5
    obtain ⟨m', g1, g2, g3⟩ := C264_mix2H r.fuse01 x.fuse01 y (CV4.fuse01_sep fr hs) ax ay fr' fx' e0 h2 h4 h5 m _ _ _
      (CV4.fuse01_has fr hR) (CV4.fuse01_has fx hX) hY
    refine ⟨m', g1, (CV4.has_fuse01 fr g2).congr ?_, fun c hc => g3 c fun h => hc ((CV4.fuse01_cov fr c).1 h)⟩
    intro i hi j hj k hk l hl
    simp only [h1, flat_div hj, flat_mod hj]
    rfl

example : U.Sep ∧ U.s2 = U.n3 * U.s3 ∧ U.s0 = U.n1 * U.s1 ∧ U.s1 = U.n2 * U.s2 ∧
    (⟨8, 9, 1, 2, 1, 2, 8, 4, 4, 2⟩ : CV4).n3 = U.n3 ∧ A.n0 = U.n1 ∧ A.n1 = U.n1 ∧ A.n0 = U.n3 ∧
    U.Has m0 (fun _ j _ l => ent 16 (2 * j + l)) ∧ A.Has m0 (fun i j => ent 0 (2 * i + j)) := by decide

end Cnine
