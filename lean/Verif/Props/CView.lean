import Verif.Lemmas.CViewFuse
import Mathlib.Data.Complex.BigOperators

/-! # Complex views: access, sums and matrix products -/

namespace Cnine

variable {α : Type}

/-! ## Examples -/

namespace CVEx

/-- Bounded universal statements are decidable. -/
@[reducible] def decAll {n : Nat} {P : Nat → Prop} (h : ∀ i, Decidable (P i)) : Decidable (∀ i, i < n → P i) :=
  @Nat.decidableBallLT n (fun i _ => P i) fun i _ => h i

instance (v : CV1) : Decidable v.Sep := by
  unfold CV1.Sep; repeat' (refine decAll fun _ => ?_)
  infer_instance
instance (v : CV2) : Decidable v.Sep := by
  unfold CV2.Sep; repeat' (refine decAll fun _ => ?_)
  infer_instance
instance (v : CV3) : Decidable v.Sep := by
  unfold CV3.Sep; repeat' (refine decAll fun _ => ?_)
  infer_instance
instance (v : CV4) : Decidable v.Sep := by
  unfold CV4.Sep; repeat' (refine decAll fun _ => ?_)
  infer_instance
instance (r x : CV1) : Decidable (r.Match x) := by
  unfold CV1.Match; repeat' (refine decAll fun _ => ?_)
  infer_instance
instance (r x : CV2) : Decidable (r.Match x) := by
  unfold CV2.Match; repeat' (refine decAll fun _ => ?_)
  infer_instance
instance (r x : CV3) : Decidable (r.Match x) := by
  unfold CV3.Match; repeat' (refine decAll fun _ => ?_)
  infer_instance
instance (v : CV1) (m : Buf Int) (X : Nat → Cx Int) : Decidable (v.Has m X) := by
  unfold CV1.Has; repeat' (refine decAll fun _ => ?_)
  infer_instance
instance (v : CV2) (m : Buf Int) (X : Nat → Nat → Cx Int) : Decidable (v.Has m X) := by
  unfold CV2.Has; repeat' (refine decAll fun _ => ?_)
  infer_instance
instance (v : CV3) (m : Buf Int) (X : Nat → Nat → Nat → Cx Int) : Decidable (v.Has m X) := by
  unfold CV3.Has; repeat' (refine decAll fun _ => ?_)
  infer_instance
instance (v : CV4) (m : Buf Int) (X : Nat → Nat → Nat → Nat → Cx Int) : Decidable (v.Has m X) := by
  unfold CV4.Has; repeat' (refine decAll fun _ => ?_)
  infer_instance

/-- Twenty-four floats. -/
def m0 : Buf Int := Buf.ofList [1, 2, 0, 1, 3, -1, 2, 2, 5, 0, 1, 1, 4, 4, -2, 1, 0, 3, 7, 1, 1, -1, 2, 6]

/-- The entries of interleaved views starting at cell `p`. -/
def ent (p : Nat) (t : Nat) : Cx Int := ⟨((m0 (p + 2 * t)).getD 0), ((m0 (p + 2 * t + 1)).getD 0)⟩

/-- A 2×2 matrix in cells 0–7, parts interleaved. -/
def A : CV2 := ⟨0, 1, 2, 2, 4, 2⟩
/-- A 2×2 matrix in cells 8–15. -/
def B : CV2 := ⟨8, 9, 2, 2, 4, 2⟩
/-- A 2×2 matrix in cells 16–23, real parts before imaginary parts, stored by columns. -/
def C : CV2 := ⟨16, 20, 2, 2, 1, 2⟩
/-- The entries of `C`. -/
def entC (i j : Nat) : Cx Int := ⟨(m0 (16 + i + 2 * j)).getD 0, (m0 (20 + i + 2 * j)).getD 0⟩

theorem apart_AB : ∀ c, A.Cov c → ¬ B.Cov c := by
  rintro c ⟨i, hi, j, hj, e⟩ ⟨k, hk, l, hl, f⟩
  simp only [A, B, CV2.off] at *
  omega

theorem apart_AC : ∀ c, A.Cov c → ¬ C.Cov c := by
  rintro c ⟨i, hi, j, hj, e⟩ ⟨k, hk, l, hl, f⟩
  simp only [A, C, CV2.off] at *
  omega

end CVEx

open CVEx

/-! ## C253: single entries -/

theorem C253_get1 (v : CV1) (m : Buf α) (X : Nat → Cx α) (hX : v.Has m X) (i : Nat) (hi : i < v.n0) : v.get i m = .ok (X i) :=
  CV1.get_ok hX hi rfl rfl

theorem C253_set1 (v : CV1) (hs : v.Sep) (m : Buf α) (R : Nat → Cx α) (hR : v.Has m R) (i : Nat) (hi : i < v.n0) (x : Cx α) :
    ∃ m', v.set i x m = .ok m' ∧ v.Has m' (fun a => if a = i then x else R a) ∧
      ∀ c, c ≠ v.arr + (v.s0 * i) → c ≠ v.arrc + (v.s0 * i) → m' c = m c :=
  CV1.store_ok hs hR hi x

theorem C253_inc1 [Add α] (v : CV1) (hs : v.Sep) (m : Buf α) (R : Nat → Cx α) (hR : v.Has m R) (i : Nat) (hi : i < v.n0) (x : Cx α) :
    ∃ m', v.inc i x m = .ok m' ∧ v.Has m' (fun a => if a = i then R i + x else R a) ∧
      ∀ c, c ≠ v.arr + (v.s0 * i) → c ≠ v.arrc + (v.s0 * i) → m' c = m c := by
  rw [CV1.inc_ok hs hR hi x rfl rfl]
  exact CV1.store_ok hs hR hi _

theorem C253_get2 (v : CV2) (m : Buf α) (X : Nat → Nat → Cx α) (hX : v.Has m X) (i j : Nat) (hi : i < v.n0) (hj : j < v.n1) : v.get i j m = .ok (X i j) :=
  CV2.get_ok hX hi hj rfl rfl

theorem C253_set2 (v : CV2) (hs : v.Sep) (m : Buf α) (R : Nat → Nat → Cx α) (hR : v.Has m R) (i j : Nat) (hi : i < v.n0) (hj : j < v.n1) (x : Cx α) :
    ∃ m', v.set i j x m = .ok m' ∧ v.Has m' (fun a b => if a = i ∧ b = j then x else R a b) ∧
      ∀ c, c ≠ v.arr + (v.s0 * i + v.s1 * j) → c ≠ v.arrc + (v.s0 * i + v.s1 * j) → m' c = m c :=
  CV2.store_ok hs hR hi hj x

theorem C253_inc2 [Add α] (v : CV2) (hs : v.Sep) (m : Buf α) (R : Nat → Nat → Cx α) (hR : v.Has m R) (i j : Nat) (hi : i < v.n0) (hj : j < v.n1) (x : Cx α) :
    ∃ m', v.inc i j x m = .ok m' ∧ v.Has m' (fun a b => if a = i ∧ b = j then R i j + x else R a b) ∧
      ∀ c, c ≠ v.arr + (v.s0 * i + v.s1 * j) → c ≠ v.arrc + (v.s0 * i + v.s1 * j) → m' c = m c := by
  rw [CV2.inc_ok hs hR hi hj x rfl rfl]
  exact CV2.store_ok hs hR hi hj _

theorem C253_get3 (v : CV3) (m : Buf α) (X : Nat → Nat → Nat → Cx α) (hX : v.Has m X) (i j k : Nat) (hi : i < v.n0) (hj : j < v.n1) (hk : k < v.n2) : v.get i j k m = .ok (X i j k) :=
  CV3.get_ok hX hi hj hk rfl rfl

theorem C253_set3 (v : CV3) (hs : v.Sep) (m : Buf α) (R : Nat → Nat → Nat → Cx α) (hR : v.Has m R) (i j k : Nat) (hi : i < v.n0) (hj : j < v.n1) (hk : k < v.n2) (x : Cx α) :
    ∃ m', v.set i j k x m = .ok m' ∧ v.Has m' (fun a b c => if a = i ∧ b = j ∧ c = k then x else R a b c) ∧
      ∀ c, c ≠ v.arr + (v.s0 * i + v.s1 * j + v.s2 * k) → c ≠ v.arrc + (v.s0 * i + v.s1 * j + v.s2 * k) → m' c = m c :=
  CV3.store_ok hs hR hi hj hk x

theorem C253_inc3 [Add α] (v : CV3) (hs : v.Sep) (m : Buf α) (R : Nat → Nat → Nat → Cx α) (hR : v.Has m R) (i j k : Nat) (hi : i < v.n0) (hj : j < v.n1) (hk : k < v.n2) (x : Cx α) :
    ∃ m', v.inc i j k x m = .ok m' ∧ v.Has m' (fun a b c => if a = i ∧ b = j ∧ c = k then R i j k + x else R a b c) ∧
      ∀ c, c ≠ v.arr + (v.s0 * i + v.s1 * j + v.s2 * k) → c ≠ v.arrc + (v.s0 * i + v.s1 * j + v.s2 * k) → m' c = m c := by
  rw [CV3.inc_ok hs hR hi hj hk x rfl rfl]
  exact CV3.store_ok hs hR hi hj hk _

theorem C253_get4 (v : CV4) (m : Buf α) (X : Nat → Nat → Nat → Nat → Cx α) (hX : v.Has m X) (i j k l : Nat) (hi : i < v.n0) (hj : j < v.n1) (hk : k < v.n2) (hl : l < v.n3) : v.get i j k l m = .ok (X i j k l) :=
  CV4.get_ok hX hi hj hk hl rfl rfl

theorem C253_set4 (v : CV4) (hs : v.Sep) (m : Buf α) (R : Nat → Nat → Nat → Nat → Cx α) (hR : v.Has m R) (i j k l : Nat) (hi : i < v.n0) (hj : j < v.n1) (hk : k < v.n2) (hl : l < v.n3) (x : Cx α) :
    ∃ m', v.set i j k l x m = .ok m' ∧ v.Has m' (fun a b c d => if a = i ∧ b = j ∧ c = k ∧ d = l then x else R a b c d) ∧
      ∀ c, c ≠ v.arr + (v.s0 * i + v.s1 * j + v.s2 * k + v.s3 * l) → c ≠ v.arrc + (v.s0 * i + v.s1 * j + v.s2 * k + v.s3 * l) → m' c = m c :=
  CV4.store_ok hs hR hi hj hk hl x

theorem C253_inc4 [Add α] (v : CV4) (hs : v.Sep) (m : Buf α) (R : Nat → Nat → Nat → Nat → Cx α) (hR : v.Has m R) (i j k l : Nat) (hi : i < v.n0) (hj : j < v.n1) (hk : k < v.n2) (hl : l < v.n3) (x : Cx α) :
    ∃ m', v.inc i j k l x m = .ok m' ∧ v.Has m' (fun a b c d => if a = i ∧ b = j ∧ c = k ∧ d = l then R i j k l + x else R a b c d) ∧
      ∀ c, c ≠ v.arr + (v.s0 * i + v.s1 * j + v.s2 * k + v.s3 * l) → c ≠ v.arrc + (v.s0 * i + v.s1 * j + v.s2 * k + v.s3 * l) → m' c = m c := by
  rw [CV4.inc_ok hs hR hi hj hk hl x rfl rfl]
  exact CV4.store_ok hs hR hi hj hk hl _

example : C.Sep ∧ C.Has m0 entC ∧ 1 < C.n0 ∧ 0 < C.n1 := by decide

/-! ## C254: vectors -/

theorem C254_add [Add α] (r x : CV1) (hs : r.Sep) (hm : r.Match x) (m : Buf α) (R X : Nat → Cx α) (hR : r.Has m R) (hX : x.Has m X) :
    if r.n0 = x.n0 then ∃ m', r.add x m = .ok m' ∧ r.Has m' (fun i => R i + X i) ∧ ∀ c, ¬ r.Cov c → m' c = m c
    else r.add x m = .throw := by
  split
  case isTrue h =>
    simp only [CV1.add, h, decide_true, Res.assrt_true, Res.ok_bind]
    rw [← h]
    exact CV1.map_run r x hs hm h.symm m R X hR hX (fun i => R i + X i) (fun i a m => r.inc i a m)
      fun i hi m h1 h2 => CV1.inc_ok hs hR hi _ h1 h2
  case isFalse h => simp [CV1.add, h]

theorem C254_addC [Ring α] (r x : CV1) (c : Cx α) (hs : r.Sep) (hm : r.Match x) (m : Buf α) (R X : Nat → Cx α) (hR : r.Has m R)
    (hX : x.Has m X) :
    if r.n0 = x.n0 then ∃ m', r.addC x c m = .ok m' ∧ r.Has m' (fun i => R i + X i * c) ∧ ∀ d, ¬ r.Cov d → m' d = m d
    else r.addC x c m = .throw := by
  split
  case isTrue h =>
    simp only [CV1.addC, h, decide_true, Res.assrt_true, Res.ok_bind]
    rw [← h]
    exact CV1.map_run r x hs hm h.symm m R X hR hX (fun i => R i + X i * c) (fun i a m => r.inc i (a * c) m)
      fun i hi m h1 h2 => CV1.inc_ok hs hR hi _ h1 h2
  case isFalse h => simp [CV1.addC, h]

theorem C254_assign (r x : CV1) (hs : r.Sep) (hm : r.Match x) (m : Buf α) (R X : Nat → Cx α) (hR : r.Has m R) (hX : x.Has m X) :
    if r.n0 = x.n0 then ∃ m', r.assign x m = .ok m' ∧ r.Has m' X ∧ ∀ c, ¬ r.Cov c → m' c = m c
    else r.assign x m = .throw := by
  split
  case isTrue h =>
    simp only [CV1.assign, h, decide_true, Res.assrt_true, Res.ok_bind]
    rw [← h]
    exact CV1.map_run r x hs hm h.symm m R X hR hX X (fun i a m => r.set i a m) fun i hi m _ _ => rfl
  case isFalse h => simp [CV1.assign, h]

/-- A vector added to itself and to one stored differently. -/
example : (A.slice0 1).Sep ∧ (A.slice0 1).Match (A.slice0 1) ∧ (A.slice0 1).Match (C.slice0 0) ∧
    (A.slice0 1).Has m0 (fun i => ent 4 i) ∧ (C.slice0 0).Has m0 (entC 0) ∧ (A.slice0 1).n0 = (C.slice0 0).n0 := by decide

/-! ## C255: sums of matrices -/

theorem C255_add [Add α] (r x : CV2) (hs : r.Sep) (hm : r.Match x) (m : Buf α) (R X : Nat → Nat → Cx α) (hR : r.Has m R)
    (hX : x.Has m X) :
    if x.n0 = r.n0 ∧ x.n1 = r.n1 then
      ∃ m', r.add x m = .ok m' ∧ r.Has m' (fun i j => R i j + X i j) ∧ ∀ c, ¬ r.Cov c → m' c = m c
    else r.add x m = .throw := by
  split
  case isTrue h =>
    obtain ⟨h0, h1⟩ := h
    simp only [CV2.add, h0, h1, decide_true, Res.assrt_true, Res.ok_bind]
    split
    case isTrue hz =>
      refine ⟨m, rfl, ?_, fun _ _ => rfl⟩
      intro i hi j hj
      rcases Nat.mul_eq_zero.1 hz with e | e <;> omega
    case isFalse hz =>
      split
      case isTrue hreg =>
        simp only [Bool.and_eq_true] at hreg
        exact CV2.add_fast r x hreg.1 hreg.2 hm h0 h1 m R X hR hX
      case isFalse hreg => exact CV2.add_run r x hs hm h0 h1 m R X hR hX
  case isFalse h =>
    by_cases h0 : x.n0 = r.n0
    · have h1 : x.n1 ≠ r.n1 := fun e => h ⟨h0, e⟩
      simp [CV2.add, h0, h1]
    · simp [CV2.add, h0]

/-- Regular matrices, one stored by columns, and a matrix with itself. -/
example : A.Sep ∧ A.Match B ∧ A.Match C ∧ A.Match A ∧ A.isRegular = true ∧ B.isRegular = true ∧ C.isRegular = false ∧
    A.Has m0 (fun i j => ent 0 (2 * i + j)) ∧ B.Has m0 (fun i j => ent 8 (2 * i + j)) ∧ C.Has m0 entC ∧
    B.n0 = A.n0 ∧ B.n1 = A.n1 ∧ C.n0 = A.n0 ∧ C.n1 = A.n1 := by decide

/-! ## C256: matrix products -/

theorem C256_AA [Ring α] (r x y : CV2) (hs : r.Sep) (hx : ∀ c, r.Cov c → ¬ x.Cov c) (hy : ∀ c, r.Cov c → ¬ y.Cov c)
    (h0 : x.n0 = r.n0) (h1 : y.n1 = r.n1) (h2 : y.n0 = x.n1) (m : Buf α) (R X Y : Nat → Nat → Cx α) (hR : r.Has m R)
    (hX : x.Has m X) (hY : y.Has m Y) :
    ∃ m', r.addMatmulAA x y m = .ok m' ∧
      r.Has m' (fun a b => R a b + ((List.range x.n1).map fun i => X a i * Y i b).sum) ∧ ∀ c, ¬ r.Cov c → m' c = m c := by
  apply CV2.prod_run r hs m R hR x.n1 (fun a b i m => do let u ← x.get a i m; let v ← y.get i b m; .ok (u * v))
  intro a ha b hb i hi m' hm'
  rw [CV2.get_apart hX hx hm' (h0 ▸ ha) hi, Res.ok_bind, CV2.get_apart hY hy hm' (h2 ▸ hi) (h1 ▸ hb), Res.ok_bind]

example : A.Sep ∧ (∀ c, A.Cov c → ¬ B.Cov c) ∧ (∀ c, A.Cov c → ¬ C.Cov c) ∧ B.n0 = A.n0 ∧ C.n1 = A.n1 ∧ C.n0 = B.n1 ∧
    A.Has m0 (fun i j => ent 0 (2 * i + j)) ∧ B.Has m0 (fun i j => ent 8 (2 * i + j)) ∧ C.Has m0 entC :=
  ⟨by decide, apart_AB, apart_AC, by decide⟩

theorem C256_AH [Ring α] (r x y : CV2) (hs : r.Sep) (hx : ∀ c, r.Cov c → ¬ x.Cov c) (hy : ∀ c, r.Cov c → ¬ y.Cov c)
    (h0 : x.n0 = r.n0) (h1 : y.n0 = r.n1) (h2 : y.n1 = x.n1) (m : Buf α) (R X Y : Nat → Nat → Cx α) (hR : r.Has m R)
    (hX : x.Has m X) (hY : y.Has m Y) :
    ∃ m', r.addMatmulAH x y m = .ok m' ∧
      r.Has m' (fun a b => R a b + ((List.range x.n1).map fun i => X a i * (Y b i).conj).sum) ∧ ∀ c, ¬ r.Cov c → m' c = m c := by
  simp only [CV2.addMatmulAH, h0, h1, h2, decide_true, Res.assrt_true, Res.ok_bind]
  apply CV2.prod_run r hs m R hR x.n1 (fun a b i m => do let u ← x.get a i m; let v ← y.get b i m; .ok (u * v.conj))
  intro a ha b hb i hi m' hm'
  rw [CV2.get_apart hX hx hm' (h0 ▸ ha) hi, Res.ok_bind, CV2.get_apart hY hy hm' (h1 ▸ hb) (h2 ▸ hi), Res.ok_bind]

theorem C256_HA [Ring α] (r x y : CV2) (hs : r.Sep) (hx : ∀ c, r.Cov c → ¬ x.Cov c) (hy : ∀ c, r.Cov c → ¬ y.Cov c)
    (h0 : x.n1 = r.n0) (h1 : y.n1 = r.n1) (h2 : y.n0 = x.n0) (m : Buf α) (R X Y : Nat → Nat → Cx α) (hR : r.Has m R)
    (hX : x.Has m X) (hY : y.Has m Y) :
    ∃ m', r.addMatmulHA x y m = .ok m' ∧
      r.Has m' (fun a b => R a b + ((List.range x.n0).map fun i => (X i a).conj * Y i b).sum) ∧ ∀ c, ¬ r.Cov c → m' c = m c := by
  simp only [CV2.addMatmulHA, h0, h1, h2, decide_true, Res.assrt_true, Res.ok_bind]
  apply CV2.prod_run r hs m R hR x.n0 (fun a b i m => do let u ← x.get i a m; let v ← y.get i b m; .ok (u.conj * v))
  intro a ha b hb i hi m' hm'
  rw [CV2.get_apart hX hx hm' hi (h0 ▸ ha), Res.ok_bind, CV2.get_apart hY hy hm' (h2 ▸ hi) (h1 ▸ hb), Res.ok_bind]

theorem C256_NA [Ring α] (r : CV2) (x : RV2) (y : CV2) (hs : r.Sep) (hx : ∀ c, r.Cov c → ∀ i, i < x.n0 → ∀ j, j < x.n1 → c ≠ x.cell i j)
    (hy : ∀ c, r.Cov c → ¬ y.Cov c) (h0 : x.n0 = r.n0) (h1 : y.n1 = r.n1) (h2 : y.n0 = x.n1) (m : Buf α) (R : Nat → Nat → Cx α)
    (X : Nat → Nat → α) (Y : Nat → Nat → Cx α) (hR : r.Has m R)
    (hX : ∀ i, i < x.n0 → ∀ j, j < x.n1 → m (x.cell i j) = some (X i j)) (hY : y.Has m Y) :
    ∃ m', r.addMatmulNA x y m = .ok m' ∧
      r.Has m' (fun a b => R a b + ((List.range x.n1).map fun i => (⟨X a i * (Y i b).re, X a i * (Y i b).im⟩ : Cx α)).sum) ∧
      ∀ c, ¬ r.Cov c → m' c = m c := by
  simp only [CV2.addMatmulNA, h0, h1, h2, decide_true, Res.assrt_true, Res.ok_bind]
  apply CV2.prod_run r hs m R hR x.n1 (fun a b i m => do let u ← m.read (x.cell a i); let v ← y.get i b m; .ok (v.scale u))
  intro a ha b hb i hi m' hm'
  have e : m' (x.cell a i) = some (X a i) := by
    rw [hm' _ fun h => hx _ h a (h0 ▸ ha) i hi rfl]; exact hX a (h0 ▸ ha) i hi
  rw [read_ok e, Res.ok_bind, CV2.get_apart hY hy hm' (h2 ▸ hi) (h1 ▸ hb), Res.ok_bind]
  rfl

example : (∀ c, A.Cov c → ∀ i, i < (⟨16, 2, 2, 1, 2⟩ : RV2).n0 → ∀ j, j < (⟨16, 2, 2, 1, 2⟩ : RV2).n1 →
    c ≠ (⟨16, 2, 2, 1, 2⟩ : RV2).cell i j) ∧ (⟨16, 2, 2, 1, 2⟩ : RV2).n0 = A.n0 ∧ B.n0 = (⟨16, 2, 2, 1, 2⟩ : RV2).n1 := by
  refine ⟨?_, rfl, rfl⟩
  rintro c ⟨i, hi, j, hj, e⟩ k hk l hl
  simp only [A, CV2.off, RV2.cell] at *
  omega

/-! ### The same over the complex numbers -/

/-- A complex number as a pair of parts. -/
def ofC (z : ℂ) : Cx ℝ := ⟨z.re, z.im⟩

theorem ofC_add (z w : ℂ) : ofC (z + w) = ofC z + ofC w := by ext <;> simp [ofC, Cx.add_def]
theorem ofC_mul (z w : ℂ) : ofC (z * w) = ofC z * ofC w := by ext <;> simp [ofC, Cx.mul_def]
theorem ofC_conj (z : ℂ) : ofC (starRingEnd ℂ z) = (ofC z).conj := by ext <;> simp [ofC, Cx.conj]

theorem ofC_sum (n : Nat) (f : Nat → ℂ) : ofC (∑ i ∈ Finset.range n, f i) = ((List.range n).map fun i => ofC (f i)).sum := by
  induction n with
  | zero => rfl
  | succ n ih =>
    rw [Finset.sum_range_succ, ofC_add, ih, List.range_succ, List.map_append, List.sum_append]
    simp

theorem C256_complex (r x y : CV2) (hs : r.Sep) (hx : ∀ c, r.Cov c → ¬ x.Cov c) (hy : ∀ c, r.Cov c → ¬ y.Cov c)
    (m : Buf ℝ) (R X Y : Nat → Nat → ℂ) (hR : r.Has m fun i j => ofC (R i j)) (hX : x.Has m fun i j => ofC (X i j))
    (hY : y.Has m fun i j => ofC (Y i j)) :
    (x.n0 = r.n0 → y.n1 = r.n1 → y.n0 = x.n1 → ∃ m', r.addMatmulAA x y m = .ok m' ∧
      (r.Has m' fun a b => ofC (R a b + ∑ i ∈ Finset.range x.n1, X a i * Y i b)) ∧ ∀ c, ¬ r.Cov c → m' c = m c) ∧
    (x.n0 = r.n0 → y.n0 = r.n1 → y.n1 = x.n1 → ∃ m', r.addMatmulAH x y m = .ok m' ∧
      (r.Has m' fun a b => ofC (R a b + ∑ i ∈ Finset.range x.n1, X a i * starRingEnd ℂ (Y b i))) ∧ ∀ c, ¬ r.Cov c → m' c = m c) ∧
    (x.n1 = r.n0 → y.n1 = r.n1 → y.n0 = x.n0 → ∃ m', r.addMatmulHA x y m = .ok m' ∧
      (r.Has m' fun a b => ofC (R a b + ∑ i ∈ Finset.range x.n0, starRingEnd ℂ (X i a) * Y i b)) ∧ ∀ c, ¬ r.Cov c → m' c = m c) := by
  refine ⟨fun h0 h1 h2 => ?_, fun h0 h1 h2 => ?_, fun h0 h1 h2 => ?_⟩
  · obtain ⟨m', g1, g2, g3⟩ := C256_AA r x y hs hx hy h0 h1 h2 m _ _ _ hR hX hY
    exact ⟨m', g1, g2.congr fun a _ b _ => by simp only [ofC_add, ofC_sum, ofC_mul], g3⟩
  · obtain ⟨m', g1, g2, g3⟩ := C256_AH r x y hs hx hy h0 h1 h2 m _ _ _ hR hX hY
    exact ⟨m', g1, g2.congr fun a _ b _ => by simp only [ofC_add, ofC_sum, ofC_mul, ofC_conj], g3⟩
  · obtain ⟨m', g1, g2, g3⟩ := C256_HA r x y hs hx hy h0 h1 h2 m _ _ _ hR hX hY
    exact ⟨m', g1, g2.congr fun a _ b _ => by simp only [ofC_add, ofC_sum, ofC_mul, ofC_conj], g3⟩

/-! ## C257: sizes of the factors -/

/-- `add_matmul_AH`, `add_matmul_HA` and `add_matmul_NA` refuse factors of wrong sizes; `add_matmul_AA` does not, see
`C257_sizes_fails`. -/
theorem C257_sizes_partial [Ring α] (r x y : CV2) (z : RV2) (m : Buf α) :
    (¬ (x.n0 = r.n0 ∧ y.n0 = r.n1 ∧ y.n1 = x.n1) → r.addMatmulAH x y m = .throw) ∧
    (¬ (x.n1 = r.n0 ∧ y.n1 = r.n1 ∧ y.n0 = x.n0) → r.addMatmulHA x y m = .throw) ∧
    (¬ (z.n0 = r.n0 ∧ y.n1 = r.n1 ∧ y.n0 = z.n1) → r.addMatmulNA z y m = .throw) := by
  have key : ∀ (p q s : Prop) [Decidable p] [Decidable q] [Decidable s] (f : Res (Buf α)), ¬ (p ∧ q ∧ s) →
      (do Res.assrt (decide p); Res.assrt (decide q); Res.assrt (decide s); f) = Res.throw := by
    intro p q s _ _ _ f h
    by_cases h1 : p
    · by_cases h2 : q
      · have h3 : ¬ s := fun h3 => h ⟨h1, h2, h3⟩
        simp [h1, h2, h3]
      · simp [h1, h2]
    · simp [h1]
  exact ⟨key _ _ _ _, key _ _ _ _, key _ _ _ _⟩

/-- A 1×2 matrix times a 1×1 matrix goes into a 1×1 matrix: there is no error, and a float of an unrelated object is used; with
nothing behind `y` the read is undefined. -/
theorem C257_sizes_fails :
    (∃ m', (⟨0, 1, 1, 1, 2, 2⟩ : CV2).addMatmulAA ⟨2, 3, 1, 2, 4, 2⟩ ⟨6, 7, 1, 1, 2, 2⟩
      (Buf.ofList ([0, 0, 1, 0, 1, 0, 5, 0, 1000, 0] : List Int)) = .ok m' ∧ m' 0 = some 1005) ∧
    (⟨0, 1, 1, 1, 2, 2⟩ : CV2).addMatmulAA ⟨2, 3, 1, 2, 4, 2⟩ ⟨6, 7, 1, 1, 2, 2⟩
      (Buf.ofList ([0, 0, 1, 0, 1, 0, 5, 0] : List Int)) = .ub :=
  ⟨⟨_, rfl, rfl⟩, rfl⟩

example : ¬ (A.n0 = 2 ∧ B.n0 = 3 ∧ B.n1 = 2) := by decide

end Cnine
