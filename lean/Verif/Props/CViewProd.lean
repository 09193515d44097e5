import Verif.Props.CViewMix
import Verif.Lemmas.RView3

/-! # Complex views: contractions and expansions into a target, tiles, flipped views -/

namespace Cnine

variable {α : Type}

open RV2 CVEx

/-- Running sums stored in every round. -/
theorem acc_store [AddCommMonoid α] [Sub α] [Mul α] (n : Nat) (f g : Nat → Buf α → Res (Cx α)) (F G : Nat → Cx α) (p q : Nat) (m : Buf α)
    (hp : (m p).isSome) (hq : (m q).isSome) (hpq : p ≠ q)
    (hf : ∀ i, i < n → ∀ m' : Buf α, (∀ c, c ≠ p → c ≠ q → m' c = m c) → f i m' = .ok (F i))
    (hg : ∀ i, i < n → ∀ m' : Buf α, (∀ c, c ≠ p → c ≠ q → m' c = m c) → g i m' = .ok (G i)) :
    (loop n ((0 : Cx α), m) fun i s => do
      let u ← f i s.2
      let v ← g i s.2
      let t := s.1 + u * v
      let m ← setC p q t s.2
      .ok (t, m)) = .ok (((List.range n).map fun i => F i * G i).sum,
        if n = 0 then m else fun c => if c = p then some ((List.range n).map fun i => F i * G i).sum.re
          else if c = q then some ((List.range n).map fun i => F i * G i).sum.im else m c) := by
  induction n with
  | zero => rfl
  | succ n ih =>
    have ih := ih (fun i hi => hf i (by omega)) (fun i hi => hg i (by omega))
    unfold loop at ih ⊢
    rw [List.range_succ, Res.forM_append, ih, Res.ok_bind, Res.forM_cons]
    have e : ∀ c, c ≠ p → c ≠ q → (if n = 0 then m else fun c => if c = p then some ((List.range n).map fun i => F i * G i).sum.re
          else if c = q then some ((List.range n).map fun i => F i * G i).sum.im else m c) c = m c := by
      intro c h1 h2
      split
      · rfl
      · simp only [h1, h2, if_false]
    have sp : ((if n = 0 then m else fun c => if c = p then some ((List.range n).map fun i => F i * G i).sum.re
          else if c = q then some ((List.range n).map fun i => F i * G i).sum.im else m c) p).isSome := by
      split
      · exact hp
      · simp
    have sq : ((if n = 0 then m else fun c => if c = p then some ((List.range n).map fun i => F i * G i).sum.re
          else if c = q then some ((List.range n).map fun i => F i * G i).sum.im else m c) q).isSome := by
      split
      · exact hq
      · simp only [hpq.symm, if_false, if_true]; rfl
    dsimp only
    rw [hf n (by omega) _ e, Res.ok_bind, hg n (by omega) _ e, Res.ok_bind, setC_ok sp sq hpq, Res.ok_bind, Res.ok_bind, Res.forM_nil]
    simp only [List.map_append, List.map_cons, List.map_nil, List.sum_append, List.sum_cons, List.sum_nil, add_zero,
      Nat.succ_ne_zero, if_false]
    congr 2
    funext c
    by_cases h1 : c = p
    · simp only [h1, if_true]
    · by_cases h2 : c = q
      · simp only [h2, hpq.symm, if_false, if_true]
      · simp only [h1, h2, if_false]; exact e c h1 h2

/-! ## C267: contracting the middle axis into a target -/

/-- What is stored: the sums of products, if there is at least one term.  The function is named and used as an addition, see
`C267_contract_fails`. -/
theorem C267_contract_partial [Ring α] (x y : CV3) (r : CV2) (hs : r.Sep) (hx : ∀ c, r.Cov c → ¬ x.Cov c) (hy : ∀ c, r.Cov c → ¬ y.Cov c)
    (m : Buf α) (R : Nat → Nat → Cx α) (X Y : Nat → Nat → Nat → Cx α) (hR : r.Has m R) (hX : x.Has m X) (hY : y.Has m Y) :
    if r.n0 = x.n0 ∧ r.n1 = x.n2 ∧ y.n0 = x.n0 ∧ y.n1 = x.n1 ∧ y.n2 = x.n2 then
      ∃ m', x.addContractTo r y m = .ok m' ∧
        r.Has m' (fun a b => if x.n1 = 0 then R a b else ((List.range x.n1).map fun i => X a i b * Y a i b).sum) ∧
        ∀ c, ¬ r.Cov c → m' c = m c
    else x.addContractTo r y m = .throw := by
  split
  case isTrue h =>
    obtain ⟨h0, h1, h2, h3, h4⟩ := h
    simp only [CV3.addContractTo, h0, h1, h2, h3, h4, decide_true, Res.assrt_true, Res.ok_bind, prod21]
    rw [← h0, ← h1]
    apply CV2.run r hs m R hR _
    intro a ha b hb m' hm'
    have out : ∀ m'' : Buf α, (∀ c, c ≠ r.arr + r.off a b → c ≠ r.arrc + r.off a b → m'' c = m' c) → ∀ c, ¬ r.Cov c → m'' c = m c := by
      intro m'' h c hc
      have := CV2.not_cov.1 hc
      rw [h c (this a ha b hb).1 (this a ha b hb).2]
      exact hm' c fun i hi j hj _ => this i hi j hj
    have hp : m' (r.arr + r.off a b) = m (r.arr + r.off a b) := hm' _ fun i hi j hj n =>
      ⟨fun e => n ((hs _ hi _ hj _ ha _ hb).1 (Nat.add_left_cancel e.symm)), (hs _ ha _ hb _ hi _ hj).2⟩
    have hq : m' (r.arrc + r.off a b) = m (r.arrc + r.off a b) := hm' _ fun i hi j hj n =>
      ⟨(hs _ hi _ hj _ ha _ hb).2.symm, fun e => n ((hs _ hi _ hj _ ha _ hb).1 (Nat.add_left_cancel e.symm))⟩
    have hr := hR a ha b hb
    have key := acc_store x.n1 (fun i m => x.get a i b m) (fun i m => y.get a i b m) (fun i => X a i b) (fun i => Y a i b)
      (r.arr + r.off a b) (r.arrc + r.off a b) m' (by rw [hp, hr.1]; rfl) (by rw [hq, hr.2]; rfl) (hs _ ha _ hb _ ha _ hb).2
      (fun i hi m'' h => CV3.get_apart hX hx (out m'' h) (h0 ▸ ha) hi (h1 ▸ hb))
      (fun i hi m'' h => CV3.get_apart hY hy (out m'' h) (h2 ▸ h0 ▸ ha) (h3 ▸ hi) (h4 ▸ h1 ▸ hb))
    have ex : ∀ i, a * x.s0 + b * x.s2 + i * x.s1 = x.off a i b := fun i => by simp only [CV3.off]; ring
    have ey : ∀ i, a * y.s0 + b * y.s2 + i * y.s1 = y.off a i b := fun i => by simp only [CV3.off]; ring
    have er : a * r.s0 + b * r.s1 = r.off a b := by simp only [CV2.off]; ring
    simp only [ex, ey, er]
    simp only [CV3.get] at key
    rw [key, Res.ok_bind, setC_ok (by rw [hp, hr.1]; rfl) (by rw [hq, hr.2]; rfl) (hs _ ha _ hb _ ha _ hb).2]
    congr 1
    split
    · funext c
      split
      case isTrue e => rw [e]; exact hp.trans hr.1
      case isFalse e =>
        split
        case isTrue e => rw [e]; exact hq.trans hr.2
        case isFalse e => rfl
    · rfl
  case isFalse h =>
    simp only [CV3.addContractTo]
    by_cases h0 : r.n0 = x.n0
    · by_cases h1 : r.n1 = x.n2
      · by_cases h2 : y.n0 = x.n0
        · by_cases h3 : y.n1 = x.n1
          · have h4 : y.n2 ≠ x.n2 := fun e => h ⟨h0, h1, h2, h3, e⟩
            simp [h0, h1, h2, h3, h4]
          · simp [h0, h1, h2, h3]
        · simp [h0, h1, h2]
      · simp [h0, h1]
    · simp [h0]

/-- The target holds 5, the one product is 2·3 = 6: the target then holds 6, not 11. -/
theorem C267_contract_fails :
    ∃ m', (⟨2, 3, 1, 1, 1, 2, 2, 2⟩ : CV3).addContractTo ⟨0, 1, 1, 1, 2, 2⟩ ⟨4, 5, 1, 1, 1, 2, 2, 2⟩
      (Buf.ofList ([5, 0, 2, 0, 3, 0] : List Int)) = .ok m' ∧ m' 0 = some 6 ∧ (5 : Int) + 2 * 3 ≠ 6 := ⟨_, rfl, rfl, by decide⟩

/-- A 1×2×2 argument (cells 0–7), another (cells 8–15), a 1×2 target (cells 16–19). -/
example : (⟨16, 17, 1, 2, 4, 2⟩ : CV2).Sep ∧ (⟨16, 17, 1, 2, 4, 2⟩ : CV2).Has m0 (fun _ j => ent 16 j) ∧
    (⟨0, 1, 1, 2, 2, 8, 4, 2⟩ : CV3).Has m0 (fun _ j k => ent 0 (2 * j + k)) ∧
    (⟨8, 9, 1, 2, 2, 8, 4, 2⟩ : CV3).Has m0 (fun _ j k => ent 8 (2 * j + k)) := by decide

example : (∀ c, (⟨16, 17, 1, 2, 4, 2⟩ : CV2).Cov c → ¬ (⟨0, 1, 1, 2, 2, 8, 4, 2⟩ : CV3).Cov c) ∧
    ∀ c, (⟨16, 17, 1, 2, 4, 2⟩ : CV2).Cov c → ¬ (⟨8, 9, 1, 2, 2, 8, 4, 2⟩ : CV3).Cov c := by
  constructor <;>
  · rintro c ⟨i, hi, j, hj, e⟩ ⟨i', hi', j', hj', k', hk', f⟩
    simp only [CV3.off, CV2.off] at *
    omega

/-! ## C268: expanding into four axes -/

/-- What is stored: the products.  The function is named as an addition, see `C268_expand_fails`. -/
theorem C268_expand_partial [Ring α] (r : CV4) (x y : CV3) (hs : r.Sep) (hx : ∀ c, r.Cov c → ¬ x.Cov c) (hy : ∀ c, r.Cov c → ¬ y.Cov c)
    (m : Buf α) (R : Nat → Nat → Nat → Nat → Cx α) (X Y : Nat → Nat → Nat → Cx α) (hR : r.Has m R) (hX : x.Has m X) (hY : y.Has m Y) :
    if x.n0 = r.n0 ∧ x.n1 = r.n1 ∧ x.n2 = r.n3 ∧ y.n0 = x.n1 ∧ y.n1 = r.n2 ∧ y.n2 = x.n2 then
      ∃ m', r.addExpand2 x y m = .ok m' ∧ r.Has m' (fun a b d c => X a b c * Y b d c) ∧ ∀ c, ¬ r.Cov c → m' c = m c
    else r.addExpand2 x y m = .throw := by
  split
  case isTrue h =>
    obtain ⟨h0, h1, h2, h3, h4, h5⟩ := h
    simp only [CV4.addExpand2, h0, h1, h2, h3, h4, h5, decide_true, Res.assrt_true, Res.ok_bind, prod4]
    apply CV4.run r hs m R hR _
    intro a ha b hb d hd c hc m' hm'
    have out : ∀ z, ¬ r.Cov z → m' z = m z := fun z hz => hm' z fun i hi j hj k hk l hl _ => CV4.not_cov.1 hz i hi j hj k hk l hl
    have gx := CV3.get_apart hX hx out (h0 ▸ ha) (h1 ▸ hb) (h2 ▸ hc)
    have gy := CV3.get_apart hY hy out (h3 ▸ h1 ▸ hb) (h4 ▸ hd) (h5 ▸ h2 ▸ hc)
    have ex : a * x.s0 + b * x.s1 + d * 0 + c * x.s2 = x.off a b c := by simp only [CV3.off]; ring
    have ey : a * 0 + b * y.s0 + d * y.s1 + c * y.s2 = y.off b d c := by simp only [CV3.off]; ring
    have er : a * r.s0 + b * r.s1 + d * r.s2 + c * r.s3 = r.off a b d c := by simp only [CV4.off]; ring
    simp only [CV3.get] at gx gy
    rw [ex, ey, er, gx, Res.ok_bind, gy, Res.ok_bind]
  case isFalse h =>
    simp only [CV4.addExpand2]
    by_cases h0 : x.n0 = r.n0
    · by_cases h1 : x.n1 = r.n1
      · by_cases h2 : x.n2 = r.n3
        · by_cases h3 : y.n0 = x.n1
          · by_cases h4 : y.n1 = r.n2
            · have h5 : y.n2 ≠ x.n2 := fun e => h ⟨h0, h1, h2, h3, h4, e⟩
              rw [h2] at h5
              rw [h1] at h3
              simp [h0, h1, h2, h3, h4, h5]
            · rw [h1] at h3
              simp [h0, h1, h2, h3, h4]
          · rw [h1] at h3
            simp [h0, h1, h2, h3]
        · simp [h0, h1, h2]
      · simp [h0, h1]
    · simp [h0]

/-- The result holds 5, the product is 2·3 = 6: the result then holds 6, not 11. -/
theorem C268_expand_fails :
    ∃ m', (⟨0, 1, 1, 1, 1, 1, 2, 2, 2, 2⟩ : CV4).addExpand2 ⟨2, 3, 1, 1, 1, 2, 2, 2⟩ ⟨4, 5, 1, 1, 1, 2, 2, 2⟩
      (Buf.ofList ([5, 0, 2, 0, 3, 0] : List Int)) = .ok m' ∧ m' 0 = some 6 ∧ (5 : Int) + 2 * 3 ≠ 6 := ⟨_, rfl, rfl, by decide⟩

/-- A 1×2×2 argument (cells 0–7), a 2×1×2 argument (cells 8–15), a 1×2×1×2 result (cells 16–23). -/
example : U.Sep ∧ U.Has m0 (fun _ j _ l => ent 16 (2 * j + l)) ∧ (⟨0, 1, 1, 2, 2, 8, 4, 2⟩ : CV3).Has m0 (fun _ j k => ent 0 (2 * j + k)) ∧
    (⟨8, 9, 2, 1, 2, 4, 4, 2⟩ : CV3).Has m0 (fun i _ k => ent 8 (2 * i + k)) := by decide

example : (∀ c, U.Cov c → ¬ (⟨0, 1, 1, 2, 2, 8, 4, 2⟩ : CV3).Cov c) ∧ ∀ c, U.Cov c → ¬ (⟨8, 9, 2, 1, 2, 4, 4, 2⟩ : CV3).Cov c := by
  constructor <;>
  · rintro c ⟨i, hi, j, hj, k, hk, l, hl, e⟩ ⟨i', hi', j', hj', k', hk', f⟩
    simp only [CV3.off, CV4.off, U] at *
    omega

/-! ## C269: contracting four axes into a target -/

/-- What is stored, slice by slice. -/
theorem C269_contract_partial [Ring α] (x : CV4) (r y : CV3) (hs : r.Sep) (hx : ∀ c, r.Cov c → ¬ x.Cov c) (hy : ∀ c, r.Cov c → ¬ y.Cov c)
    (h0 : r.n0 = x.n0) (h1 : r.n1 = x.n1) (h2 : r.n2 = x.n3) (h3 : y.n0 = x.n1) (h4 : y.n1 = x.n2) (h5 : y.n2 = x.n3)
    (m : Buf α) (R Y : Nat → Nat → Nat → Cx α) (X : Nat → Nat → Nat → Nat → Cx α) (hR : r.Has m R) (hX : x.Has m X) (hY : y.Has m Y) :
    ∃ m', x.addContractTo r y m = .ok m' ∧
      r.Has m' (fun a b c => if x.n2 = 0 then R a b c else ((List.range x.n2).map fun i => X a b i c * Y b i c).sum) ∧
      ∀ c, ¬ r.Cov c → m' c = m c := by
  simp only [CV4.addContractTo, h0, decide_true, Res.assrt_true, Res.ok_bind]
  have or : ∀ i j k, (r.slice0 i).off j k + i * r.s0 = r.off i j k := fun i j k => by simp only [CV3.slice0, CV2.off, CV3.off]; ring
  have ar : ∀ i j k, (r.slice0 i).arr + (r.slice0 i).off j k = r.arr + r.off i j k := fun i j k => by
    rw [← or i j k]; simp only [CV3.slice0]; ring
  have ac : ∀ i j k, (r.slice0 i).arrc + (r.slice0 i).off j k = r.arrc + r.off i j k := fun i j k => by
    rw [← or i j k]; simp only [CV3.slice0]; ring
  have xr : ∀ i j k l, (x.slice0 i).arr + (x.slice0 i).off j k l = x.arr + x.off i j k l := fun i j k l => by
    simp only [CV4.slice0, CV3.off, CV4.off]; ring
  have xc : ∀ i j k l, (x.slice0 i).arrc + (x.slice0 i).off j k l = x.arrc + x.off i j k l := fun i j k l => by
    simp only [CV4.slice0, CV3.off, CV4.off]; ring
  have cov : ∀ i, i < x.n0 → ∀ c, (r.slice0 i).Cov c → r.Cov c := by
    rintro i hi c ⟨j, hj, k, hk, e⟩
    rw [ar, ac] at e
    exact ⟨i, h0 ▸ hi, j, hj, k, hk, e⟩
  have covx : ∀ i, i < x.n0 → ∀ c, (x.slice0 i).Cov c → x.Cov c := by
    rintro i hi c ⟨j, hj, k, hk, l, hl, e⟩
    rw [xr, xc] at e
    exact ⟨i, hi, j, hj, k, hk, l, hl, e⟩
  obtain ⟨m', g1, g2, g3⟩ := loop_regions x.n0 (fun i m => (x.slice0 i).addContractTo (r.slice0 i) y m) (fun i c => (r.slice0 i).Cov c)
    (fun i m => (r.slice0 i).Has m (fun b c => if x.n2 = 0 then R i b c else ((List.range x.n2).map fun k => X i b k c * Y b k c).sum)) m
    (by
      rintro i hi i' hi' ne c ⟨j, hj, k, hk, e⟩ ⟨j', hj', k', hk', f⟩
      rw [ar, ac] at e f
      have hi : i < r.n0 := h0 ▸ hi
      have hi' : i' < r.n0 := h0 ▸ hi'
      have s := hs i hi j hj k hk i' hi' j' hj' k' hk'
      have s' := hs i' hi' j' hj' k' hk' i hi j hj k hk
      rcases e with e | e <;> rcases f with f | f
      · exact ne (s.1 (Nat.add_left_cancel (e.symm.trans f))).1
      · exact s.2 (e.symm.trans f)
      · exact s'.2 (f.symm.trans e)
      · exact ne (s.1 (Nat.add_left_cancel (e.symm.trans f))).1)
    (by
      intro i hi m1 m2 h hP j hj k hk
      rw [h _ ⟨j, hj, k, hk, .inl rfl⟩, h _ ⟨j, hj, k, hk, .inr rfl⟩]
      exact hP j hj k hk)
    (by
      intro i hi m1 hm1
      have hi' : i < r.n0 := h0 ▸ hi
      have own : ∀ c, (r.slice0 i).Cov c → m1 c = m c := by
        rintro c ⟨j, hj, k, hk, e⟩
        apply hm1
        rintro i' hi2 ne ⟨j', hj', k', hk', f⟩
        rw [ar, ac] at e f
        have hi2 : i' < r.n0 := h0 ▸ hi2
        have s := hs i hi' j hj k hk i' hi2 j' hj' k' hk'
        have s' := hs i' hi2 j' hj' k' hk' i hi' j hj k hk
        rcases e with e | e <;> rcases f with f | f
        · exact ne (s.1 (Nat.add_left_cancel (e.symm.trans f))).1.symm
        · exact s.2 (e.symm.trans f)
        · exact s'.2 (f.symm.trans e)
        · exact ne (s.1 (Nat.add_left_cancel (e.symm.trans f))).1.symm
      have out : ∀ c, ¬ r.Cov c → m1 c = m c := fun c hc => hm1 c fun j hj _ h => hc (cov j hj c h)
      have e1 : (r.slice0 i).Has m1 (R i) := by
        intro j hj k hk
        rw [own _ ⟨j, hj, k, hk, .inl rfl⟩, own _ ⟨j, hj, k, hk, .inr rfl⟩]
        exact ((C258_slices3 r m R hR).1 i hi').2.2 j hj k hk
      have e2 : (x.slice0 i).Has m1 (X i) := by
        intro j hj k hk l hl
        rw [out _ fun h => hx _ h (covx i hi _ ⟨j, hj, k, hk, l, hl, .inl rfl⟩), out _ fun h => hx _ h (covx i hi _ ⟨j, hj, k, hk, l, hl, .inr rfl⟩)]
        exact ((C258_slices4 x m X hX).1 i hi).2.2.2 j hj k hk l hl
      have e3 : y.Has m1 Y := by
        intro j hj k hk l hl
        rw [out _ fun h => hy _ h ⟨j, hj, k, hk, l, hl, .inl rfl⟩, out _ fun h => hy _ h ⟨j, hj, k, hk, l, hl, .inr rfl⟩]
        exact hY j hj k hk l hl
      have sep : (r.slice0 i).Sep := by
        intro j hj k hk j' hj' k' hk'
        have s := hs i hi' j hj k hk i hi' j' hj' k' hk'
        refine ⟨fun e => ?_, ?_⟩
        · have := s.1 (by rw [← or, ← or, e])
          exact this.2
        · rw [ar, ac]; exact s.2
      have := C267_contract_partial (x.slice0 i) y (r.slice0 i) sep
        (fun c hc h => hx c (cov i hi c hc) (covx i hi c h)) (fun c hc => hy c (cov i hi c hc)) m1 _ _ _ e1 e2 e3
      rw [if_pos ⟨h1, h2, h3, h4, h5⟩] at this
      exact this)
  refine ⟨m', g1, ?_, fun c hc => g3 c fun i hi h => hc (cov i hi c h)⟩
  intro i hi j hj k hk
  have := g2 i (h0 ▸ hi) j hj k hk
  rw [ar, ac] at this
  exact this

/-- As in `C267_contract_fails`. -/
theorem C269_contract_fails :
    ∃ m', (⟨2, 3, 1, 1, 1, 1, 2, 2, 2, 2⟩ : CV4).addContractTo ⟨0, 1, 1, 1, 1, 2, 2, 2⟩ ⟨4, 5, 1, 1, 1, 2, 2, 2⟩
      (Buf.ofList ([5, 0, 2, 0, 3, 0] : List Int)) = .ok m' ∧ m' 0 = some 6 ∧ (5 : Int) + 2 * 3 ≠ 6 := ⟨_, rfl, rfl, by decide⟩

/-- A 1×2×1×2 argument (cells 16–23), a 2×1×2 argument (cells 8–15), a 1×2×2 target (cells 0–7). -/
example : (⟨0, 1, 1, 2, 2, 8, 4, 2⟩ : CV3).Sep ∧ U.Has m0 (fun _ j _ l => ent 16 (2 * j + l)) ∧
    (⟨0, 1, 1, 2, 2, 8, 4, 2⟩ : CV3).Has m0 (fun _ j k => ent 0 (2 * j + k)) ∧
    (⟨8, 9, 2, 1, 2, 4, 4, 2⟩ : CV3).Has m0 (fun i _ k => ent 8 (2 * i + k)) := by decide

example : (∀ c, (⟨0, 1, 1, 2, 2, 8, 4, 2⟩ : CV3).Cov c → ¬ U.Cov c) ∧
    ∀ c, (⟨0, 1, 1, 2, 2, 8, 4, 2⟩ : CV3).Cov c → ¬ (⟨8, 9, 2, 1, 2, 4, 4, 2⟩ : CV3).Cov c := by
  constructor
  · rintro c ⟨i', hi', j', hj', k', hk', f⟩ ⟨i, hi, j, hj, k, hk, l, hl, e⟩
    simp only [CV3.off, CV4.off, U] at *
    omega
  · rintro c ⟨i', hi', j', hj', k', hk', f⟩ ⟨i, hi, j, hj, k, hk, e⟩
    simp only [CV3.off] at *
    omega

/-! ## C270: tiles of the last axis -/

theorem tiles_eq {n2 n : Nat} (h2 : 0 < n2) (hn : 0 < n) : CV4.tiles n2 n = .ok ((n2 - 1) / n + 1) := by
  have e : Int.tdiv ((n2 : Int) - 1) n = (((n2 - 1) / n : Nat) : Int) := by
    rw [show ((n2 : Int) - 1) = ((n2 - 1 : Nat) : Int) by omega, Int.ofNat_tdiv]
  have hn : n ≠ 0 := by omega
  simp only [CV4.tiles, hn, if_false, e]
  congr 1

/-- The number of tiles and the size of the last one; every entry of the view is an entry of its tiled view. -/
theorem C270_cover (x : CV3) (n : Nat) (h2 : 0 < x.n2) (hn : 0 < n) :
    ∃ w t l, CV4.split2 x n = .ok w ∧ CV4.lastTile x.n2 n = .ok (l : Nat) ∧ w.n0 = x.n0 ∧ w.n1 = x.n1 ∧ w.n2 = t + 1 ∧ w.n3 = n ∧
      n * t + l = x.n2 ∧ 0 < l ∧ l ≤ n ∧ w.arr = x.arr ∧ w.arrc = x.arrc ∧
      ∀ i j k, k < x.n2 → k / n < w.n2 ∧ k % n < w.n3 ∧ w.off i j (k / n) (k % n) = x.off i j k := by
  have hd := Nat.div_add_mod (x.n2 - 1) n
  have hm := Nat.mod_lt (x.n2 - 1) hn
  have e : Int.tdiv ((x.n2 : Int) - 1) n = (((x.n2 - 1) / n : Nat) : Int) := by
    rw [show ((x.n2 : Int) - 1) = ((x.n2 - 1 : Nat) : Int) by omega, Int.ofNat_tdiv]
  refine ⟨_, (x.n2 - 1) / n, (x.n2 - 1) % n + 1, by rw [CV4.split2, tiles_eq h2 hn, Res.ok_bind], ?_, rfl, rfl, rfl, rfl, by omega, by omega,
    by omega, rfl, rfl, ?_⟩
  · have hn' : n ≠ 0 := by omega
    simp only [CV4.lastTile, hn', if_false, e]
    congr 1
    have : (n : Int) * ((x.n2 - 1) / n : Nat) + ((x.n2 - 1) % n : Nat) = ((x.n2 - 1 : Nat) : Int) := by exact_mod_cast hd
    rw [Int.mul_comm ((((x.n2 - 1) / n : Nat)) : Int) n]
    omega
  · intro i j k hk
    refine ⟨?_, Nat.mod_lt k hn, ?_⟩
    · show k / n < (x.n2 - 1) / n + 1
      exact Nat.lt_succ_of_le (Nat.div_le_div_right (by omega))
    · simp only [CV4.off, CV3.off]
      conv_rhs => rw [← Nat.div_add_mod k n]
      ring

/-- If the tile size divides the axis, the tiled view holds exactly the entries of the view. -/
theorem C270_split2_partial (x : CV3) (n : Nat) (h2 : 0 < x.n2) (hn : n ∣ x.n2) (m : Buf α) (X : Nat → Nat → Nat → Cx α) (hX : x.Has m X) :
    ∃ w, CV4.split2 x n = .ok w ∧ w.n0 = x.n0 ∧ w.n1 = x.n1 ∧ w.n2 * n = x.n2 ∧ w.n3 = n ∧
      w.Has m (fun i j k l => X i j (n * k + l)) := by
  have hn0 : 0 < n := Nat.pos_of_dvd_of_pos hn h2
  obtain ⟨q, hq⟩ := hn
  have hq0 : 0 < q := by
    rcases Nat.eq_zero_or_pos q with e | e
    · rw [e] at hq; omega
    · exact e
  have e : (x.n2 - 1) / n + 1 = q := by
    have : (x.n2 - 1) / n = q - 1 := by
      apply Nat.div_eq_of_lt_le
      · rw [hq, Nat.sub_mul, Nat.mul_comm q n]; omega
      · rw [hq, show q - 1 + 1 = q by omega, Nat.mul_comm q n]
        have := Nat.mul_pos hn0 hq0
        omega
    omega
  refine ⟨_, by rw [CV4.split2, tiles_eq h2 hn0, Res.ok_bind], rfl, rfl, ?_, rfl, ?_⟩
  · show ((x.n2 - 1) / n + 1) * n = x.n2
    rw [e, hq, Nat.mul_comm]
  · intro i hi j hj k hk l hl
    have hk : k < (x.n2 - 1) / n + 1 := hk
    rw [e] at hk
    have := hX i hi j hj (n * k + l) (by rw [hq, Nat.mul_comm n q]; exact flat_lt hk hl)
    simp only [CV4.off, CV3.off] at this ⊢
    constructor
    · rw [← this.1]; congr 1; ring
    · rw [← this.2]; congr 1; ring

/-- Three entries in tiles of two: the second tile has an entry that is not one of the view, here outside the memory; an empty axis has
one tile. -/
theorem C270_split2_fails :
    (∃ w, CV4.split2 ⟨0, 1, 1, 1, 3, 6, 6, 2⟩ 2 = .ok w ∧ w.n2 = 2 ∧ w.n3 = 2 ∧
      w.get 0 0 1 1 (Buf.ofList ([1, 2, 3, 4, 5, 6] : List Int)) = .ub) ∧
    CV4.tiles 0 2 = .ok 1 ∧ CV4.tiles 3 0 = .ub := ⟨⟨_, rfl, rfl, rfl, rfl⟩, rfl, rfl⟩

example : T.Has m0 (fun i j k => ent 0 (4 * i + 2 * j + k)) ∧ 0 < T.n2 ∧ 2 ∣ T.n2 := by decide

/-! ## C271: flipped views -/

theorem C271_flip (v : CV3Z) : v.flip.n0 = v.n0 ∧ v.flip.n1 = v.n1 ∧ v.flip.n2 = v.n2 ∧ v.flip.flip = v ∧
    ∀ i j k, j < v.n1 → k < v.n2 → v.flip.arr + v.flip.off i j k = v.arr + v.off i (v.n1 - 1 - j) (v.n2 - 1 - k) ∧
      v.flip.arrc + v.flip.off i j k = v.arrc + v.off i (v.n1 - 1 - j) (v.n2 - 1 - k) := by
  refine ⟨rfl, rfl, rfl, ?_, ?_⟩
  · cases v
    simp only [CV3Z.flip, CV3Z.mk.injEq, true_and, Int.neg_neg, and_true]
    constructor <;> ring
  · intro i j k hj hk
    simp only [CV3Z.flip, CV3Z.off]
    rw [show ((v.n1 - 1 - j : Nat) : Int) = v.n1 - 1 - j by omega, show ((v.n2 - 1 - k : Nat) : Int) = v.n2 - 1 - k by omega]
    constructor <;> ring

example : (⟨0, 1, 2, 2, 3, 12, 6, 2⟩ : CV3Z).flip = ⟨10, 11, 2, 2, 3, 12, -6, -2⟩ := by decide

end Cnine
