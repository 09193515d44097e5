import Verif.Lemmas.Cublas
import Verif.Props.RView2
import Verif.Props.RViewThree
import Verif.Props.CView
import Verif.Props.CViewMix
import Verif.Props.ViewFuse

/-!
# Properties C454–C460: matrix products by cuBLAS

The GPU branches of the matrix products must compute what the CPU branches compute (C134, C256, C278 …).
-/

namespace Cnine

section real

variable {α : Type _}

theorem clear_one {p q : Nat} : Gemm.Clear 1 p q ↔ p ≠ q := by
  unfold Gemm.Clear; omega

/-- The condition on the operands in terms of different cells. -/
theorem fine_one {g : Gemm}
    (hC : ∀ t, t < g.cnt → ∀ i, i < g.m → ∀ j, j < g.n → ∀ t', t' < g.cnt → ∀ i', i' < g.m → ∀ j', j' < g.n →
      g.C 1 t i j = g.C 1 t' i' j' → t = t' ∧ i = i' ∧ j = j')
    (hA : ∀ t, t < g.cnt → ∀ i, i < g.m → ∀ j, j < g.n → ∀ t', t' < g.cnt → ∀ i', i' < g.m → ∀ l, l < g.k → g.C 1 t i j ≠ g.A 1 t' i' l)
    (hB : ∀ t, t < g.cnt → ∀ i, i < g.m → ∀ j, j < g.n → ∀ t', t' < g.cnt → ∀ l, l < g.k → ∀ j', j' < g.n → g.C 1 t i j ≠ g.B 1 t' l j') :
    g.Fine 1 := by
  intro t ht i hi j hj
  refine ⟨fun t' ht' i' hi' j' hj' => ?_, fun t' ht' l hl => ⟨fun i' hi' => clear_one.2 (hA t ht i hi j hj t' ht' i' hi' l hl),
    fun j' hj' => clear_one.2 (hB t ht i hi j hj t' ht' l hl j' hj')⟩⟩
  by_cases e : g.C 1 t i j = g.C 1 t' i' j'
  · exact .inl (hC t ht i hi j hj t' ht' i' hi' j' hj' e)
  · exact .inr (clear_one.2 e)

/-- What the GPU products ask of a matrix: neighbouring entries in a row, rows that do not overlap, and a row step that is not 0. -/
def RV2.Rows (v : RV2) : Prop := v.s1 = 1 ∧ v.n1 ≤ v.s0 ∧ 0 < v.s0

theorem RV2.Rows.cell {v : RV2} (h : v.Rows) (i j : Nat) : v.cell i j = v.arr + (i * v.s0 + j) := by
  rw [RV2.cell, h.1, Nat.one_mul, Nat.mul_comm]

theorem RV2.Rows.inj {v : RV2} (h : v.Rows) : v.Inj := by
  intro i _ j hj k _ l hl e
  rw [h.cell, h.cell] at e
  exact divmod_inj (Nat.lt_of_lt_of_le hj h.2.1) (Nat.lt_of_lt_of_le hl h.2.1) (by omega)

/-- A regular matrix with at least one column has the layout. -/
theorem RV2.rows_of_regular {v : RV2} (h : v.isRegular = true) (h1 : 0 < v.n1) : v.Rows := by
  obtain ⟨a, b⟩ := isRegular_iff.1 h
  exact ⟨a, by omega, by omega⟩

/-- One real product times a number, entry by entry. -/
theorem gemm_al [CommSemiring α] (al : α) (ta tb : BlasOp) (K : Nat) (r x y : RV2) (hr : r.Rows) (hx : x.Rows) (hy : y.Rows)
    (hxr : r.Apart x) (hyr : r.Apart y) (px py : Nat → Nat → Nat × Nat)
    (hlda : max 1 (if ta = .N then r.n1 else K) ≤ y.s0) (hldb : max 1 (if tb = .N then K else r.n0) ≤ x.s0)
    (hpy : ∀ i, i < r.n1 → ∀ l, l < K → (py i l).1 < y.n0 ∧ (py i l).2 < y.n1 ∧ ta.pos y.s0 i l = (py i l).1 * y.s0 + (py i l).2)
    (hpx : ∀ j, j < r.n0 → ∀ l, l < K → (px l j).1 < x.n0 ∧ (px l j).2 < x.n1 ∧ tb.pos x.s0 l j = (px l j).1 * x.s0 + (px l j).2)
    (m : Buf α) (R X Y : Nat → Nat → α) (hR : r.Has m R) (hX : x.Has m X) (hY : y.Has m Y) :
    ∃ m', sgemm al ⟨ta, tb, r.n1, r.n0, K, y.arr, y.s0, 0, x.arr, x.s0, 0, r.arr, r.s0, 0, 1⟩ m = .ok m' ∧
      r.Becomes m m' fun a b => R a b + al * ((List.range K).map fun l => X (px l a).1 (px l a).2 * Y (py b l).1 (py b l).2).sum := by
  have eC : ∀ t i j, Gemm.C ⟨ta, tb, r.n1, r.n0, K, y.arr, y.s0, 0, x.arr, x.s0, 0, r.arr, r.s0, 0, 1⟩ 1 t i j = r.cell j i := by
    intro t i j
    simp only [Gemm.C, hr.cell]; omega
  have eA : ∀ t i, i < r.n1 → ∀ l, l < K →
      Gemm.A ⟨ta, tb, r.n1, r.n0, K, y.arr, y.s0, 0, x.arr, x.s0, 0, r.arr, r.s0, 0, 1⟩ 1 t i l = y.cell (py i l).1 (py i l).2 := by
    intro t i hi l hl
    simp only [Gemm.A, hy.cell, (hpy i hi l hl).2.2]; omega
  have eB : ∀ t l, l < K → ∀ j, j < r.n0 →
      Gemm.B ⟨ta, tb, r.n1, r.n0, K, y.arr, y.s0, 0, x.arr, x.s0, 0, r.arr, r.s0, 0, 1⟩ 1 t l j = x.cell (px l j).1 (px l j).2 := by
    intro t l hl j hj
    simp only [Gemm.B, hx.cell, (hpx j hj l hl).2.2]; omega
  obtain ⟨m', h1, h2, h3⟩ := sgemm_ok (α := α) al ⟨ta, tb, r.n1, r.n0, K, y.arr, y.s0, 0, x.arr, x.s0, 0, r.arr, r.s0, 0, 1⟩
    (by
      have := hr.2.1
      have := hr.2.2
      simp only [Gemm.ldOk, Bool.and_eq_true, decide_eq_true_eq]
      exact ⟨⟨hlda, hldb⟩, by omega⟩)
    (fine_one
      (by
        intro t ht i hi j hj t' ht' i' hi' j' hj' e
        rw [eC, eC] at e
        obtain ⟨e1, e2⟩ := hr.inj _ hj _ hi _ hj' _ hi' e
        exact ⟨by dsimp only at ht ht'; omega, e2, e1⟩)
      (by
        intro t _ i hi j hj t' _ i' hi' l hl
        rw [eC, eA t' i' hi' l hl]
        exact hyr _ hj _ hi _ (hpy i' hi' l hl).1 _ (hpy i' hi' l hl).2.1)
      (by
        intro t _ i hi j hj t' _ l hl j' hj'
        rw [eC, eB t' l hl j' hj']
        exact hxr _ hj _ hi _ (hpx j' hj' l hl).1 _ (hpx j' hj' l hl).2.1)) m
    (fun _ i j => R j i) (fun _ i l => Y (py i l).1 (py i l).2) (fun _ l j => X (px l j).1 (px l j).2)
    (fun t _ j hj i hi => by rw [eC]; exact hR j hj i hi)
    (fun t _ i hi l hl => by rw [eA t i hi l hl]; exact hY _ (hpy i hi l hl).1 _ (hpy i hi l hl).2.1)
    (fun t _ l hl j hj => by rw [eB t l hl j hj]; exact hX _ (hpx j hj l hl).1 _ (hpx j hj l hl).2.1)
  refine ⟨m', h1, ?_, fun c hc => h3 c fun t _ j hj i hi => by rw [eC]; exact hc j hj i hi⟩
  intro a ha b hb
  have e := h2 0 Nat.one_pos a ha b hb
  rw [eC] at e
  rw [e]
  simp only [mul_comm (Y _ _)]

/-- One real product, entry by entry. -/
theorem gemm_one [CommSemiring α] (ta tb : BlasOp) (K : Nat) (r x y : RV2) (hr : r.Rows) (hx : x.Rows) (hy : y.Rows)
    (hxr : r.Apart x) (hyr : r.Apart y) (px py : Nat → Nat → Nat × Nat)
    (hlda : max 1 (if ta = .N then r.n1 else K) ≤ y.s0) (hldb : max 1 (if tb = .N then K else r.n0) ≤ x.s0)
    (hpy : ∀ i, i < r.n1 → ∀ l, l < K → (py i l).1 < y.n0 ∧ (py i l).2 < y.n1 ∧ ta.pos y.s0 i l = (py i l).1 * y.s0 + (py i l).2)
    (hpx : ∀ j, j < r.n0 → ∀ l, l < K → (px l j).1 < x.n0 ∧ (px l j).2 < x.n1 ∧ tb.pos x.s0 l j = (px l j).1 * x.s0 + (px l j).2)
    (m : Buf α) (R X Y : Nat → Nat → α) (hR : r.Has m R) (hX : x.Has m X) (hY : y.Has m Y) :
    ∃ m', sgemm 1 ⟨ta, tb, r.n1, r.n0, K, y.arr, y.s0, 0, x.arr, x.s0, 0, r.arr, r.s0, 0, 1⟩ m = .ok m' ∧
      r.Becomes m m' fun a b => R a b + ((List.range K).map fun l => X (px l a).1 (px l a).2 * Y (py b l).1 (py b l).2).sum := by
  obtain ⟨m', h1, h2⟩ := gemm_al 1 ta tb K r x y hr hx hy hxr hyr px py hlda hldb hpy hpx m R X Y hR hX hY
  refine ⟨m', h1, ?_⟩
  simp only [one_mul] at h2
  exact h2

/-- `r += x·y` on the GPU. -/
theorem C454_AA [CommSemiring α] (r x y : RV2) (hr : r.Rows) (hx : x.Rows) (hy : y.Rows) (h0 : x.n0 = r.n0) (h1 : y.n1 = r.n1)
    (hI : y.n0 = x.n1) (hxr : r.Apart x) (hyr : r.Apart y) (m : Buf α) (R X Y : Nat → Nat → α) (hR : r.Has m R) (hX : x.Has m X)
    (hY : y.Has m Y) :
    ∃ m', r.gAddMatmulAA x y m = .ok m' ∧
      r.Becomes m m' fun a b => R a b + ((List.range x.n1).map fun i => X a i * Y i b).sum := by
  have a1 := hx.2; have a2 := hy.2
  simp only [RV2.gAddMatmulAA, h0, h1, hI, hr.1, hx.1, hy.1, decide_true, Res.assrt_true, Res.ok_bind]
  exact gemm_one .N .N x.n1 r x y hr hx hy hxr hyr (fun l j => (j, l)) (fun i l => (l, i)) (by rw [if_pos rfl]; omega)
    (by rw [if_pos rfl]; omega) (fun i hi l hl => ⟨hI ▸ hl, h1 ▸ hi, by simp only [BlasOp.pos]; omega⟩)
    (fun j hj l hl => ⟨h0 ▸ hj, hl, by simp only [BlasOp.pos]; omega⟩) m R X Y hR hX hY

/-- `r += x·yᵀ` on the GPU. -/
theorem C454_AT [CommSemiring α] (r x y : RV2) (hr : r.Rows) (hx : x.Rows) (hy : y.Rows) (h0 : x.n0 = r.n0) (h1 : y.n0 = r.n1)
    (hI : y.n1 = x.n1) (hxr : r.Apart x) (hyr : r.Apart y) (m : Buf α) (R X Y : Nat → Nat → α) (hR : r.Has m R) (hX : x.Has m X)
    (hY : y.Has m Y) :
    ∃ m', r.gAddMatmulAT x y m = .ok m' ∧
      r.Becomes m m' fun a b => R a b + ((List.range x.n1).map fun i => X a i * Y b i).sum := by
  have a1 := hx.2; have a2 := hy.2
  simp only [RV2.gAddMatmulAT, h0, h1, hI, hr.1, hx.1, hy.1, decide_true, Res.assrt_true, Res.ok_bind]
  exact gemm_one .T .N x.n1 r x y hr hx hy hxr hyr (fun l j => (j, l)) (fun i l => (i, l)) (by rw [if_neg (by decide)]; omega)
    (by rw [if_pos rfl]; omega) (fun i hi l hl => ⟨h1 ▸ hi, hI ▸ hl, by simp only [BlasOp.pos]; omega⟩)
    (fun j hj l hl => ⟨h0 ▸ hj, hl, by simp only [BlasOp.pos]; omega⟩) m R X Y hR hX hY

/-- `r += xᵀ·y` on the GPU. -/
theorem C454_TA [CommSemiring α] (r x y : RV2) (hr : r.Rows) (hx : x.Rows) (hy : y.Rows) (h0 : x.n1 = r.n0) (h1 : y.n1 = r.n1)
    (hI : y.n0 = x.n0) (hxr : r.Apart x) (hyr : r.Apart y) (m : Buf α) (R X Y : Nat → Nat → α) (hR : r.Has m R) (hX : x.Has m X)
    (hY : y.Has m Y) :
    ∃ m', r.gAddMatmulTA x y m = .ok m' ∧
      r.Becomes m m' fun a b => R a b + ((List.range x.n0).map fun i => X i a * Y i b).sum := by
  have a1 := hx.2; have a2 := hy.2
  simp only [RV2.gAddMatmulTA, h0, h1, hI, hr.1, hx.1, hy.1, decide_true, Res.assrt_true, Res.ok_bind]
  exact gemm_one .N .T x.n0 r x y hr hx hy hxr hyr (fun l j => (l, j)) (fun i l => (l, i)) (by rw [if_pos rfl]; omega)
    (by rw [if_neg (by decide)]; omega) (fun i hi l hl => ⟨hI ▸ hl, h1 ▸ hi, by simp only [BlasOp.pos]; omega⟩)
    (fun j hj l hl => ⟨hl, h0 ▸ hj, by simp only [BlasOp.pos]; omega⟩) m R X Y hR hX hY

/-- The GPU and the CPU leave the same memory. -/
theorem C454_same [CommSemiring α] (r x y : RV2) (hr : r.Rows) (hx : x.Rows) (hy : y.Rows) (h0 : x.n0 = r.n0) (h1 : y.n1 = r.n1)
    (hI : y.n0 = x.n1) (hxr : r.Apart x) (hyr : r.Apart y) (m : Buf α) (R X Y : Nat → Nat → α) (hR : r.Has m R) (hX : x.Has m X)
    (hY : y.Has m Y) : r.gAddMatmulAA x y m = r.addMatmulAA x y m := by
  obtain ⟨m1, a1, a2, a3⟩ := C454_AA r x y hr hx hy h0 h1 hI hxr hyr m R X Y hR hX hY
  obtain ⟨m2, b1, b2, b3⟩ := C134_AA r x y h0 h1 hI hr.inj hxr hyr m R X Y hR hX hY
  rw [a1, b1]
  congr 1
  funext c
  by_cases h : ∃ i, i < r.n0 ∧ ∃ j, j < r.n1 ∧ c = r.cell i j
  · obtain ⟨i, hi, j, hj, rfl⟩ := h
    rw [a2 i hi j hj, b2 i hi j hj]
  · have h' : ∀ i, i < r.n0 → ∀ j, j < r.n1 → c ≠ r.cell i j := fun i hi j hj e => h ⟨i, hi, j, hj, e⟩
    rw [a3 c h', b3 c h']

/-- Sizes that do not fit, and entries of a row that are not neighbours, are refused. -/
theorem C454_refuses [Zero α] [One α] [Add α] [Mul α] (r x y : RV2) (m : Buf α) :
    (¬ (x.n0 = r.n0 ∧ y.n1 = r.n1 ∧ y.n0 = x.n1 ∧ r.s1 = 1 ∧ x.s1 = 1 ∧ y.s1 = 1) → r.gAddMatmulAA x y m = .throw) ∧
    (¬ (x.n0 = r.n0 ∧ y.n0 = r.n1 ∧ y.n1 = x.n1 ∧ r.s1 = 1 ∧ x.s1 = 1 ∧ y.s1 = 1) → r.gAddMatmulAT x y m = .throw) ∧
    (¬ (x.n1 = r.n0 ∧ y.n0 = x.n0 ∧ y.n1 = r.n1 ∧ r.s1 = 1 ∧ x.s1 = 1 ∧ y.s1 = 1) → r.gAddMatmulTA x y m = .throw) := by
  have key : ∀ (p q s u v w : Prop) [Decidable p] [Decidable q] [Decidable s] [Decidable u] [Decidable v] [Decidable w]
      (k : Res (Buf α)), ¬ (p ∧ q ∧ s ∧ u ∧ v ∧ w) →
      (do Res.assrt (decide p); Res.assrt (decide q); Res.assrt (decide s); Res.assrt (decide u); Res.assrt (decide v)
          Res.assrt (decide w); k) = .throw := by
    intro p q s u v w _ _ _ _ _ _ k h
    by_cases hp : p
    · by_cases hq : q
      · by_cases hs : s
        · by_cases hu : u
          · by_cases hv : v
            · have hw : ¬ w := fun hw => h ⟨hp, hq, hs, hu, hv, hw⟩
              simp [hp, hq, hs, hu, hv, hw]
            · simp [hp, hq, hs, hu, hv]
          · simp [hp, hq, hs, hu]
        · simp [hp, hq, hs]
      · simp [hp, hq]
    · simp [hp]
  exact ⟨fun h => key _ _ _ _ _ _ _ h, fun h => key _ _ _ _ _ _ _ h, fun h => key _ _ _ _ _ _ _ h⟩

/-- `add_mprod` on the GPU, for regular matrices and for one transposed factor. -/
theorem C454_mprod [CommSemiring α] (r x y : RV2) (h0 : x.n0 = r.n0) (h1 : y.n1 = r.n1) (hI : y.n0 = x.n1) (hr : r.isRegular = true)
    (hl : (x.isRegular = true ∧ y.isRegular = true) ∨ (x.isRegular = true ∧ y.isTranspose = true) ∨
      (x.isTranspose = true ∧ y.isRegular = true))
    (p0 : 0 < r.n0) (p1 : 0 < r.n1) (pI : 0 < x.n1) (hxr : r.Apart x) (hyr : r.Apart y) (m : Buf α) (R X Y : Nat → Nat → α)
    (hR : r.Has m R) (hX : x.Has m X) (hY : y.Has m Y) :
    ∃ m', r.gAddMprod x y m = .ok m' ∧ r.Becomes m m' fun a b => R a b + ((List.range x.n1).map fun i => X a i * Y i b).sum := by
  have hrr := RV2.rows_of_regular hr p1
  have tc : ∀ (v : RV2) (i j : Nat), v.transp.cell i j = v.cell j i := fun v i j => by
    simp only [RV2.cell, RV2.transp]; omega
  have tr : ∀ v : RV2, v.isTranspose = true → 0 < v.n0 → v.transp.Rows := by
    intro v h hv
    simp only [RV2.isTranspose, Bool.and_eq_true, decide_eq_true_eq] at h
    exact ⟨h.2, by simp only [RV2.transp]; omega, by simp only [RV2.transp]; omega⟩
  by_cases c1 : x.isRegular = true ∧ y.isRegular = true
  · have e : r.gAddMprod x y m = r.gAddMatmulAA x y m := by simp [RV2.gAddMprod, hr, c1.1, c1.2]
    rw [e]
    exact C454_AA r x y hrr (RV2.rows_of_regular c1.1 pI) (RV2.rows_of_regular c1.2 (by omega)) h0 h1 hI hxr hyr m R X Y hR hX hY
  · by_cases c2 : x.isRegular = true ∧ y.isTranspose = true
    · have e : r.gAddMprod x y m = r.gAddMatmulAT x y.transp m := by
        have : y.isRegular = false := by
          rw [Bool.eq_false_iff]; exact fun h => c1 ⟨c2.1, h⟩
        simp [RV2.gAddMprod, hr, c2.1, c2.2, this]
      rw [e]
      exact C454_AT r x y.transp hrr (RV2.rows_of_regular c2.1 pI) (tr y c2.2 (by omega)) h0 h1 hI hxr
        (fun i hi j hj k hk l hl => by rw [tc]; exact hyr i hi j hj l hl k hk) m R X (fun i j => Y j i) hR hX
        (fun i hi j hj => by rw [tc]; exact hY j hj i hi)
    · have c3 : x.isTranspose = true ∧ y.isRegular = true := by
        rcases hl with h | h | h
        · exact absurd h c1
        · exact absurd h c2
        · exact h
      have e : r.gAddMprod x y m = r.gAddMatmulTA x.transp y m := by
        have : x.isRegular = false := by
          rw [Bool.eq_false_iff]; exact fun h => c1 ⟨h, c3.2⟩
        simp [RV2.gAddMprod, hr, c3.1, c3.2, this]
      rw [e]
      exact C454_TA r x.transp y hrr (tr x c3.1 (by omega)) (RV2.rows_of_regular c3.2 (by omega)) h0 h1 hI
        (fun i hi j hj k hk l hl => by rw [tc]; exact hxr i hi j hj l hl k hk) hyr m R (fun i j => X j i) Y hR
        (fun i hi j hj => by rw [tc]; exact hX j hj i hi) hY

instance (v : RV2) [DecidableEq α] (m : Buf α) (X : Nat → Nat → α) : Decidable (v.Has m X) := by unfold RV2.Has; infer_instance
instance (v : RV2) : Decidable v.Inj := by
  unfold RV2.Inj; repeat' (refine CVEx.decAll fun _ => ?_)
  infer_instance
instance (v x : RV2) : Decidable (v.Apart x) := by unfold RV2.Apart; infer_instance
instance (v : RV2) : Decidable v.Rows := by unfold RV2.Rows; infer_instance
instance (v : RV3) [DecidableEq α] (m : Buf α) (X : Nat → Nat → Nat → α) : Decidable (v.Has m X) := by unfold RV3.Has; infer_instance
instance (v : RV3) : Decidable v.Inj := by
  unfold RV3.Inj; repeat' (refine CVEx.decAll fun _ => ?_)
  infer_instance
instance (v x : RV3) : Decidable (v.Apart x) := by
  unfold RV3.Apart; repeat' (refine CVEx.decAll fun _ => ?_)
  infer_instance
instance (v : RV3) (x : RV2) : Decidable (v.Apart2 x) := by unfold RV3.Apart2; infer_instance

/-- The matrices of the examples: 2×2, 2×3 (in rows of four) and 3×2. -/
def gxR : RV2 := ⟨0, 2, 2, 2, 1⟩
def gxX : RV2 := ⟨4, 2, 3, 4, 1⟩
def gxY : RV2 := ⟨12, 3, 2, 2, 1⟩
def gxM : Buf Nat := fun c => if c < 60 then some c else none

example : gxR.Rows ∧ gxX.Rows ∧ gxY.Rows ∧ gxX.n0 = gxR.n0 ∧ gxY.n1 = gxR.n1 ∧ gxY.n0 = gxX.n1 ∧ gxR.Apart gxX ∧ gxR.Apart gxY ∧
    gxR.Has gxM (fun i j => 2 * i + j) ∧ gxX.Has gxM (fun i j => 4 + 4 * i + j) ∧ gxY.Has gxM (fun i j => 12 + 2 * i + j) := by
  decide

/-- Entry `(1,0)` of the sum. -/
example : ∃ m', gxR.gAddMatmulAA gxX gxY gxM = .ok m' ∧ m' 2 = some (2 + (8 * 12 + 9 * 14 + 10 * 16)) ∧ m' 4 = some 4 := ⟨_, rfl, by decide, by decide⟩

/-- A regular result with a regular and a transposed factor. -/
example : gxR.isRegular = true ∧ (⟨12, 3, 2, 1, 3⟩ : RV2).isTranspose = true ∧ (⟨4, 2, 3, 3, 1⟩ : RV2).isRegular = true ∧
    gxR.Apart ⟨12, 3, 2, 1, 3⟩ := by decide

/-! ## C455: an empty inner axis -/

/-- With no columns in `x` the product is zero and the CPU leaves `r` as it is; on the GPU the row step 0 of the regular matrix `x` is an
invalid argument and the program ends. -/
theorem C455_empty_fails [CommSemiring α] (r x y : RV2) (hx : x.isRegular = true) (hI : x.n1 = 0) (h0 : x.n0 = r.n0) (h1 : y.n1 = r.n1)
    (h2 : y.n0 = x.n1) (hr : r.Inj) (m : Buf α) (R : Nat → Nat → α) (hR : r.Has m R) :
    r.gAddMatmulAA x y m = .throw ∧ ∃ m', r.addMatmulAA x y m = .ok m' ∧ r.Becomes m m' R := by
  constructor
  · have e : x.s0 = 0 := by rw [(RV2.isRegular_iff.1 hx).2, hI]
    simp only [RV2.gAddMatmulAA, h0, h1, h2, decide_true, Res.assrt_true, Res.ok_bind, sgemm, Gemm.ldOk, e]
    have : decide (max 1 (if True then x.n1 else r.n0) ≤ 0) = false := decide_eq_false (by omega)
    rw [this]
    by_cases a : r.s1 = 1 <;> by_cases b : x.s1 = 1 <;> by_cases c : y.s1 = 1 <;> simp [a, b, c]
  · obtain ⟨m', a, b, c⟩ := C134_AA r x y h0 h1 h2 hr (fun i hi j hj k hk l hl => by omega) (fun i hi j hj k hk l hl => by omega) m R
      (fun _ _ => 0) (fun _ _ => 0) hR (fun i hi j hj => by omega) (fun i hi j hj => by omega)
    refine ⟨m', a, fun i hi j hj => ?_, c⟩
    rw [b i hi j hj, hI]
    simp

example : (⟨4, 2, 0, 0, 1⟩ : RV2).isRegular = true ∧ (⟨4, 2, 0, 0, 1⟩ : RV2).n0 = gxR.n0 ∧ (⟨4, 0, 2, 2, 1⟩ : RV2).n1 = gxR.n1 ∧ gxR.Inj ∧
    gxR.Has gxM (fun i j => 2 * i + j) := by decide

/-! ## C456, C457: one matrix times every matrix of a batch -/

/-- `r_b += x·y_b` on the GPU. -/
theorem C456_batched [CommSemiring α] (r : RV3) (x : RV2) (y : RV3) (h0 : r.n0 = y.n0) (h1 : r.n1 = x.n0) (h2 : r.n2 = y.n2)
    (hI : x.n1 = y.n1) (hr : r.Inj) (hr2 : r.s2 = 1) (hr1 : r.n2 ≤ r.s1 ∧ 0 < r.s1) (hy2 : y.s2 = 1) (hy1 : y.n2 ≤ y.s1 ∧ 0 < y.s1)
    (hx : (x.isRegular = true ∧ 0 < x.n1) ∨ (x.isTranspose = true ∧ 0 < x.n0 ∧ 0 < x.n1)) (hxr : r.Apart2 x) (hyr : r.Apart y)
    (m : Buf α) (R Y : Nat → Nat → Nat → α) (X : Nat → Nat → α) (hR : r.Has m R) (hX : x.Has m X) (hY : y.Has m Y) :
    ∃ m', r.gAddMprod x y m = .ok m' ∧
      r.Becomes m m' fun b i j => R b i j + ((List.range x.n1).map fun l => X i l * Y b l j).sum := by
  have core : ∀ (tb : BlasOp) (ld : Nat), max 1 (if tb = .N then x.n1 else r.n1) ≤ ld → (∀ l j, x.arr + tb.pos ld l j = x.cell j l) →
      ∃ m', sgemm 1 ⟨.N, tb, r.n2, r.n1, x.n1, y.arr, y.s1, y.s0, x.arr, ld, 0, r.arr, r.s1, r.s0, r.n0⟩ m = .ok m' ∧
        r.Becomes m m' fun b i j => R b i j + ((List.range x.n1).map fun l => X i l * Y b l j).sum := by
    intro tb ld hld hp
    have eC : ∀ t i j, Gemm.C ⟨.N, tb, r.n2, r.n1, x.n1, y.arr, y.s1, y.s0, x.arr, ld, 0, r.arr, r.s1, r.s0, r.n0⟩ 1 t i j = r.cell t j i := by
      intro t i j
      simp only [Gemm.C, RV3.cell, hr2, Nat.mul_comm t, Nat.mul_comm j]; omega
    have eA : ∀ t i l, Gemm.A ⟨.N, tb, r.n2, r.n1, x.n1, y.arr, y.s1, y.s0, x.arr, ld, 0, r.arr, r.s1, r.s0, r.n0⟩ 1 t i l = y.cell t l i := by
      intro t i l
      simp only [Gemm.A, RV3.cell, hy2, BlasOp.pos, Nat.mul_comm t, Nat.mul_comm l]; omega
    have eB : ∀ t l j, Gemm.B ⟨.N, tb, r.n2, r.n1, x.n1, y.arr, y.s1, y.s0, x.arr, ld, 0, r.arr, r.s1, r.s0, r.n0⟩ 1 t l j = x.cell j l := by
      intro t l j
      rw [← hp l j]
      simp only [Gemm.B]; omega
    obtain ⟨m', g1, g2, g3⟩ := sgemm_ok (α := α) 1 ⟨.N, tb, r.n2, r.n1, x.n1, y.arr, y.s1, y.s0, x.arr, ld, 0, r.arr, r.s1, r.s0, r.n0⟩
      (by
        simp only [Gemm.ldOk, Bool.and_eq_true, decide_eq_true_eq]
        exact ⟨⟨by rw [if_pos trivial]; omega, hld⟩, by omega⟩)
      (fine_one
        (by
          intro t ht i hi j hj t' ht' i' hi' j' hj' e
          rw [eC, eC] at e
          obtain ⟨e1, e2, e3⟩ := hr _ ht _ hj _ hi _ ht' _ hj' _ hi' e
          exact ⟨e1, e3, e2⟩)
        (by
          intro t ht i hi j hj t' ht' i' hi' l hl
          rw [eC, eA]
          exact hyr _ ht _ hj _ hi _ (h0 ▸ ht') _ (hI ▸ hl) _ (h2 ▸ hi'))
        (by
          intro t ht i hi j hj t' _ l hl j' hj'
          rw [eC, eB]
          exact hxr _ ht _ hj _ hi _ (h1 ▸ hj') _ hl)) m
      (fun t i j => R t j i) (fun t i l => Y t l i) (fun _ l j => X j l)
      (fun t ht j hj i hi => by rw [eC]; exact hR t ht j hj i hi)
      (fun t ht i hi l hl => by rw [eA]; exact hY _ (h0 ▸ ht) _ (hI ▸ hl) _ (h2 ▸ hi))
      (fun t _ l hl j hj => by rw [eB]; exact hX _ (h1 ▸ hj) _ hl)
    refine ⟨m', g1, ?_, fun c hc => g3 c fun t ht j hj i hi => by rw [eC]; exact RV3.not_mem.1 hc t ht j hj i hi⟩
    intro b hb i hi j hj
    have e := g2 b hb i hi j hj
    rw [eC] at e
    rw [e, one_mul]
    simp only [mul_comm]
  have hA : x.isRegular = true → 0 < x.n1 → ∃ m', r.gAddMprod x y m = .ok m' ∧
      r.Becomes m m' fun b i j => R b i j + ((List.range x.n1).map fun l => X i l * Y b l j).sum := by
    intro hx hp
    obtain ⟨x1, x0⟩ := RV2.isRegular_iff.1 hx
    simp only [RV3.gAddMprod, ← h0, h1, ← h2, ← hI, decide_true, Res.assrt_true, Res.ok_bind, hx, if_true]
    rw [← h1]
    apply core .N x.s0
    · rw [if_pos rfl]; omega
    · intro l j
      simp only [BlasOp.pos, RV2.cell, x1, Nat.mul_comm j]; omega
  rcases hx with ⟨hx, hp⟩ | ⟨hx, hp0, hp⟩
  · exact hA hx hp
  · by_cases hreg : x.isRegular = true
    · exact hA hreg hp
    · have hreg' : x.isRegular = false := by rwa [Bool.not_eq_true] at hreg
      have hx' := hx
      simp only [RV2.isTranspose, Bool.and_eq_true, decide_eq_true_eq] at hx'
      simp only [RV3.gAddMprod, ← h0, h1, ← h2, ← hI, decide_true, Res.assrt_true, Res.ok_bind, hreg', hx, if_true]
      rw [← h1]
      apply core .T x.s1
      · rw [if_neg (by decide)]; omega
      · intro l j
        simp only [BlasOp.pos, RV2.cell, hx'.2, Nat.mul_comm l]; omega

/-- The tensors of the examples: 2×2×2 results, a 2×3 matrix, 2×3×2 factors. -/
def gxR3 : RV3 := ⟨0, 2, 2, 2, 4, 2, 1⟩
def gxY3 : RV3 := ⟨20, 2, 3, 2, 6, 2, 1⟩
def gxX2 : RV2 := ⟨8, 2, 3, 3, 1⟩

example : gxR3.Inj ∧ gxR3.Apart2 gxX2 ∧ gxR3.Apart gxY3 ∧ gxX2.isRegular = true ∧ (⟨8, 2, 3, 1, 2⟩ : RV2).isTranspose = true ∧
    gxR3.Has gxM (fun b i j => 4 * b + 2 * i + j) ∧ gxX2.Has gxM (fun i j => 8 + 3 * i + j) ∧
    gxY3.Has gxM (fun b i j => 20 + 6 * b + 2 * i + j) := by decide

/-- Entry `(1,0,1)`. -/
example : ∃ m', gxR3.gAddMprod gxX2 gxY3 gxM = .ok m' ∧ m' 5 = some (5 + (8 * 27 + 9 * 29 + 10 * 31)) := ⟨_, rfl, by decide⟩

/-- The last strides of the result and of the batch are not looked at: a batch made of every second column of a larger one is multiplied
as if the entries of its rows were neighbours.  A matrix that is neither regular nor transposed, such as a block of a larger one, does nothing at all. -/
theorem C457_strides_fails :
    (∀ [CommSemiring α] (r y : RV3) (x : RV2) (p q : Nat) (m : Buf α),
      RV3.gAddMprod { r with s2 := p } x { y with s2 := q } m = r.gAddMprod x y m) ∧
    (∀ [CommSemiring α] (r y : RV3) (x : RV2) (m : Buf α), r.n0 = y.n0 → r.n1 = x.n0 → r.n2 = y.n2 → x.n1 = y.n1 →
      x.isRegular = false → x.isTranspose = false → r.gAddMprod x y m = .ok m) ∧
    (∃ (y : RV3) (m' : Buf Nat), gxR3.n0 = y.n0 ∧ gxR3.n2 = y.n2 ∧ gxX2.n1 = y.n1 ∧ gxR3.Apart y ∧
      y.Has gxM (fun b l j => 20 + 12 * b + 4 * l + 2 * j) ∧ gxR3.gAddMprod gxX2 y gxM = .ok m' ∧
      ¬ gxR3.Has m' (fun b i j => 4 * b + 2 * i + j +
        ((List.range 3).map fun l => (8 + 3 * i + l) * (20 + 12 * b + 4 * l + 2 * j)).sum)) := by
  refine ⟨fun r y x p q m => rfl, fun r y x m h0 h1 h2 h3 ha hb => ?_, ⟨20, 2, 3, 2, 12, 4, 2⟩, ?_⟩
  · simp [RV3.gAddMprod, h0, h1, h2, h3, ha, hb]
  · exact ⟨_, by decide, by decide, by decide, by decide, by decide, rfl, by decide⟩

end real

section complex

variable {α : Type}

open CVEx

theorem Cx.mul_comm' [CommRing α] (a b : Cx α) : a * b = b * a := by
  have e : ∀ u v : Cx α, u * v = ⟨u.re * v.re - u.im * v.im, u.re * v.im + u.im * v.re⟩ := fun _ _ => rfl
  rw [e, e]
  ext
  · show a.re * b.re - a.im * b.im = b.re * a.re - b.im * a.im
    ring
  · show a.re * b.im + a.im * b.re = b.re * a.im + b.im * a.re
    ring

/-- Where the entries of a regular matrix lie. -/
theorem CV2.reg_off {v : CV2} (h : v.isRegular = true) (i j : Nat) : v.off i j = 2 * (i * v.n1 + j) ∧ v.arrc = v.arr + 1 := by
  obtain ⟨h1, h2, h3⟩ := CV2.isRegular_iff.1 h
  refine ⟨?_, h1⟩
  rw [CV2.off, h2, h3, Nat.mul_assoc, Nat.mul_comm v.n1]; omega

theorem CV3.reg_off {v : CV3} (h : v.isRegular = true) (i j k : Nat) :
    v.off i j k = 2 * (i * (v.n1 * v.n2) + j * v.n2 + k) ∧ v.arrc = v.arr + 1 ∧ v.s0 / 2 = v.n1 * v.n2 := by
  obtain ⟨h1, h2, h3, h4⟩ := CV3.isRegular_iff.1 h
  have e : v.s0 = 2 * (v.n1 * v.n2) := by rw [h4, h3, Nat.mul_assoc, Nat.mul_comm v.n2]
  refine ⟨?_, h1, by omega⟩
  rw [CV3.off, e, h3, h2]; ring

/-- Entries of a regular view are different pairs of neighbouring cells, and away from the entries of disjoint views. -/
theorem clear_two {p q : Nat} (h1 : p ≠ q) (h2 : p ≠ q + 1) (h3 : p + 1 ≠ q) : Gemm.Clear 2 p q := by
  unfold Gemm.Clear; omega

theorem CV2.clear {r x : CV2} (hr : r.isRegular = true) (hx : x.isRegular = true) (h : ∀ c, r.Cov c → ¬ x.Cov c) {i j k l : Nat}
    (hi : i < r.n0) (hj : j < r.n1) (hk : k < x.n0) (hl : l < x.n1) : Gemm.Clear 2 (r.arr + r.off i j) (x.arr + x.off k l) := by
  have a := (CV2.reg_off hr i j).2
  have b := (CV2.reg_off hx k l).2
  refine clear_two (fun e => h _ ⟨i, hi, j, hj, .inl rfl⟩ ⟨k, hk, l, hl, .inl e⟩)
    (fun e => h _ ⟨i, hi, j, hj, .inl rfl⟩ ⟨k, hk, l, hl, .inr (by rw [b]; omega)⟩)
    (fun e => h (r.arr + r.off i j + 1) ⟨i, hi, j, hj, .inr (by rw [a]; omega)⟩ ⟨k, hk, l, hl, .inl e⟩)

/-- One complex product, entry by entry. -/
theorem cgemm_one [CommRing α] (ta tb : BlasOp) (K : Nat) (r x y : CV2) (hr : r.isRegular = true) (hx : x.isRegular = true)
    (hy : y.isRegular = true) (hp : 0 < r.n1)
    (hxr : ∀ c, r.Cov c → ¬ x.Cov c) (hyr : ∀ c, r.Cov c → ¬ y.Cov c) (px py : Nat → Nat → Nat × Nat)
    (hlda : max 1 (if ta = .N then r.n1 else K) ≤ y.n1) (hldb : max 1 (if tb = .N then K else r.n0) ≤ x.n1)
    (hpy : ∀ i, i < r.n1 → ∀ l, l < K → (py i l).1 < y.n0 ∧ (py i l).2 < y.n1 ∧ ta.pos y.n1 i l = (py i l).1 * y.n1 + (py i l).2)
    (hpx : ∀ j, j < r.n0 → ∀ l, l < K → (px l j).1 < x.n0 ∧ (px l j).2 < x.n1 ∧ tb.pos x.n1 l j = (px l j).1 * x.n1 + (px l j).2)
    (m : Buf α) (R X Y : Nat → Nat → Cx α) (hR : r.Has m R) (hX : x.Has m X) (hY : y.Has m Y) :
    ∃ m', cgemm ⟨ta, tb, r.n1, r.n0, K, y.arr, y.n1, 0, x.arr, x.n1, 0, r.arr, r.n1, 0, 1⟩ m = .ok m' ∧
      r.Has m' (fun a b => R a b + ((List.range K).map fun l =>
        tb.val (X (px l a).1 (px l a).2) * ta.val (Y (py b l).1 (py b l).2)).sum) ∧ ∀ c, ¬ r.Cov c → m' c = m c := by
  have eC : ∀ t i j, Gemm.C ⟨ta, tb, r.n1, r.n0, K, y.arr, y.n1, 0, x.arr, x.n1, 0, r.arr, r.n1, 0, 1⟩ 2 t i j = r.arr + r.off j i := by
    intro t i j
    simp only [Gemm.C, (CV2.reg_off hr j i).1]; omega
  have eA : ∀ t i, i < r.n1 → ∀ l, l < K →
      Gemm.A ⟨ta, tb, r.n1, r.n0, K, y.arr, y.n1, 0, x.arr, x.n1, 0, r.arr, r.n1, 0, 1⟩ 2 t i l = y.arr + y.off (py i l).1 (py i l).2 := by
    intro t i hi l hl
    simp only [Gemm.A, (CV2.reg_off hy _ _).1, (hpy i hi l hl).2.2]; omega
  have eB : ∀ t l, l < K → ∀ j, j < r.n0 →
      Gemm.B ⟨ta, tb, r.n1, r.n0, K, y.arr, y.n1, 0, x.arr, x.n1, 0, r.arr, r.n1, 0, 1⟩ 2 t l j = x.arr + x.off (px l j).1 (px l j).2 := by
    intro t l hl j hj
    simp only [Gemm.B, (CV2.reg_off hx _ _).1, (hpx j hj l hl).2.2]; omega
  have im : ∀ {v : CV2} (_ : v.isRegular = true) (i j : Nat), v.arr + v.off i j + 1 = v.arrc + v.off i j := by
    intro v h i j
    rw [(CV2.reg_off h i j).2]; omega
  obtain ⟨m', h1, h2, h3⟩ := cgemm_ok (α := α) ⟨ta, tb, r.n1, r.n0, K, y.arr, y.n1, 0, x.arr, x.n1, 0, r.arr, r.n1, 0, 1⟩
    (by
      simp only [Gemm.ldOk, Bool.and_eq_true, decide_eq_true_eq]
      exact ⟨⟨hlda, hldb⟩, by omega⟩)
    (by
      intro t ht i hi j hj
      refine ⟨fun t' ht' i' hi' j' hj' => ?_, fun t' _ l hl => ⟨fun i' hi' => ?_, fun j' hj' => ?_⟩⟩
      · rw [eC, eC]
        by_cases e : j * r.n1 + i = j' * r.n1 + i'
        · obtain ⟨e1, e2⟩ := divmod_inj hi hi' e
          exact .inl ⟨by dsimp only at ht ht'; omega, e2, e1⟩
        · refine .inr ?_
          rw [(CV2.reg_off hr j i).1, (CV2.reg_off hr j' i').1]
          unfold Gemm.Clear; omega
      · rw [eC, eA t' i' hi' l hl]
        exact CV2.clear hr hy hyr hj hi (hpy i' hi' l hl).1 (hpy i' hi' l hl).2.1
      · rw [eC, eB t' l hl j' hj']
        exact CV2.clear hr hx hxr hj hi (hpx j' hj' l hl).1 (hpx j' hj' l hl).2.1) m
    (fun _ i j => R j i) (fun _ i l => Y (py i l).1 (py i l).2) (fun _ l j => X (px l j).1 (px l j).2)
    (fun t _ j hj i hi => by rw [eC, im hr]; exact hR j hj i hi)
    (fun t _ i hi l hl => by rw [eA t i hi l hl, im hy]; exact hY _ (hpy i hi l hl).1 _ (hpy i hi l hl).2.1)
    (fun t _ l hl j hj => by rw [eB t l hl j hj, im hx]; exact hX _ (hpx j hj l hl).1 _ (hpx j hj l hl).2.1)
  refine ⟨m', h1, ?_, fun c hc => h3 c fun t _ j hj i hi => ?_⟩
  · intro a ha b hb
    have e := h2 0 Nat.one_pos a ha b hb
    rw [eC, im hr] at e
    have hc : (fun l => ta.val (Y (py b l).1 (py b l).2) * tb.val (X (px l a).1 (px l a).2)) =
        fun l => tb.val (X (px l a).1 (px l a).2) * ta.val (Y (py b l).1 (py b l).2) := funext fun l => Cx.mul_comm' _ _
    rw [hc] at e
    exact e
  · rw [eC, im hr]
    exact ⟨fun e => hc ⟨j, hj, i, hi, .inl e⟩, fun e => hc ⟨j, hj, i, hi, .inr e⟩⟩

/-! ## C458: complex products of regular matrices -/

theorem C458_AA [CommRing α] (r x y : CV2) (hr : r.isRegular = true) (hx : x.isRegular = true) (hy : y.isRegular = true) (p1 : 0 < r.n1)
    (pI : 0 < x.n1) (hxr : ∀ c, r.Cov c → ¬ x.Cov c) (hyr : ∀ c, r.Cov c → ¬ y.Cov c) (h0 : x.n0 = r.n0) (h1 : y.n1 = r.n1)
    (h2 : y.n0 = x.n1) (m : Buf α) (R X Y : Nat → Nat → Cx α) (hR : r.Has m R) (hX : x.Has m X) (hY : y.Has m Y) :
    ∃ m', r.gAddMatmulAA x y m = .ok m' ∧
      r.Has m' (fun a b => R a b + ((List.range x.n1).map fun i => X a i * Y i b).sum) ∧ ∀ c, ¬ r.Cov c → m' c = m c := by
  rw [CV2.gAddMatmulAA, hr, Res.assrt_true, Res.ok_bind]
  exact cgemm_one .N .N x.n1 r x y hr hx hy p1 hxr hyr (fun l j => (j, l)) (fun i l => (l, i)) (by rw [if_pos rfl]; omega)
    (by rw [if_pos rfl]; omega) (fun i hi l hl => ⟨h2 ▸ hl, h1 ▸ hi, by simp only [BlasOp.pos]; omega⟩)
    (fun j hj l hl => ⟨h0 ▸ hj, hl, by simp only [BlasOp.pos]; omega⟩) m R X Y hR hX hY

theorem C458_AH [CommRing α] (r x y : CV2) (hr : r.isRegular = true) (hx : x.isRegular = true) (hy : y.isRegular = true) (p1 : 0 < r.n1)
    (pI : 0 < x.n1) (hxr : ∀ c, r.Cov c → ¬ x.Cov c) (hyr : ∀ c, r.Cov c → ¬ y.Cov c) (h0 : x.n0 = r.n0) (h1 : y.n0 = r.n1)
    (h2 : y.n1 = x.n1) (m : Buf α) (R X Y : Nat → Nat → Cx α) (hR : r.Has m R) (hX : x.Has m X) (hY : y.Has m Y) :
    ∃ m', r.gAddMatmulAH x y m = .ok m' ∧
      r.Has m' (fun a b => R a b + ((List.range x.n1).map fun i => X a i * (Y b i).conj).sum) ∧ ∀ c, ¬ r.Cov c → m' c = m c := by
  simp only [CV2.gAddMatmulAH, h0, h1, h2, hr, decide_true, Res.assrt_true, Res.ok_bind]
  rw [← h2]
  exact h2 ▸ cgemm_one .C .N x.n1 r x y hr hx hy p1 hxr hyr (fun l j => (j, l)) (fun i l => (i, l)) (by rw [if_neg (by decide)]; omega)
    (by rw [if_pos rfl]; omega) (fun i hi l hl => ⟨h1 ▸ hi, h2 ▸ hl, by simp only [BlasOp.pos]; omega⟩)
    (fun j hj l hl => ⟨h0 ▸ hj, hl, by simp only [BlasOp.pos]; omega⟩) m R X Y hR hX hY

theorem C458_HA [CommRing α] (r x y : CV2) (hr : r.isRegular = true) (hx : x.isRegular = true) (hy : y.isRegular = true) (p0 : 0 < r.n0)
    (p1 : 0 < r.n1) (hxr : ∀ c, r.Cov c → ¬ x.Cov c) (hyr : ∀ c, r.Cov c → ¬ y.Cov c) (h0 : x.n1 = r.n0) (h1 : y.n1 = r.n1)
    (h2 : y.n0 = x.n0) (m : Buf α) (R X Y : Nat → Nat → Cx α) (hR : r.Has m R) (hX : x.Has m X) (hY : y.Has m Y) :
    ∃ m', r.gAddMatmulHA x y m = .ok m' ∧
      r.Has m' (fun a b => R a b + ((List.range x.n0).map fun i => (X i a).conj * Y i b).sum) ∧ ∀ c, ¬ r.Cov c → m' c = m c := by
  rw [CV2.gAddMatmulHA, decide_eq_true h0, decide_eq_true h1, decide_eq_true h2, hr, Res.assrt_true, Res.ok_bind, Res.ok_bind, Res.ok_bind,
    Res.ok_bind]
  exact cgemm_one .N .C x.n0 r x y hr hx hy p1 hxr hyr (fun l j => (l, j)) (fun i l => (l, i)) (by rw [if_pos rfl]; omega)
    (by rw [if_neg (by decide)]; omega) (fun i hi l hl => ⟨h2 ▸ hl, h1 ▸ hi, by simp only [BlasOp.pos]; omega⟩)
    (fun j hj l hl => ⟨hl, h0 ▸ hj, by simp only [BlasOp.pos]; omega⟩) m R X Y hR hX hY

/-- A result that is not regular, and (for two of the products) sizes that do not fit, are refused. -/
theorem C458_refuses [CommRing α] (r x y : CV2) (m : Buf α) :
    (r.isRegular = false → r.gAddMatmulAA x y m = .throw ∧ r.gAddMatmulAH x y m = .throw ∧ r.gAddMatmulHA x y m = .throw) ∧
    (¬ (x.n0 = r.n0 ∧ y.n0 = r.n1 ∧ y.n1 = x.n1) → r.gAddMatmulAH x y m = .throw) ∧
    (¬ (x.n1 = r.n0 ∧ y.n1 = r.n1 ∧ y.n0 = x.n0) → r.gAddMatmulHA x y m = .throw) := by
  have key : ∀ (p q s : Prop) (b : Bool) [Decidable p] [Decidable q] [Decidable s] (k : Res (Buf α)), (¬ (p ∧ q ∧ s) ∨ b = false) →
      (do Res.assrt (decide p); Res.assrt (decide q); Res.assrt (decide s); Res.assrt b; k) = .throw := by
    intro p q s b _ _ _ k h
    by_cases hp : p
    · by_cases hq : q
      · by_cases hs : s
        · have hb : b = false := h.resolve_left fun n => n ⟨hp, hq, hs⟩
          simp [hp, hq, hs, hb]
        · simp [hp, hq, hs]
      · simp [hp, hq]
    · simp [hp]
  refine ⟨fun h => ⟨?_, key _ _ _ _ _ (.inr h), key _ _ _ _ _ (.inr h)⟩, fun h => key _ _ _ _ _ (.inl h), fun h => key _ _ _ _ _ (.inl h)⟩
  rw [CV2.gAddMatmulAA, h]; rfl

/-- A 2×2 matrix in cells 16–23 of the memory of C256, parts interleaved. -/
def gxC : CV2 := ⟨16, 17, 2, 2, 4, 2⟩

theorem gxAC : ∀ c, A.Cov c → ¬ gxC.Cov c := by
  rintro c ⟨i, hi, j, hj, e⟩ ⟨k, hk, l, hl, f⟩
  simp only [A, gxC, CV2.off] at *
  omega

example : A.isRegular = true ∧ B.isRegular = true ∧ gxC.isRegular = true ∧ (∀ c, A.Cov c → ¬ B.Cov c) ∧ (∀ c, A.Cov c → ¬ gxC.Cov c) ∧
    B.n0 = A.n0 ∧ gxC.n1 = A.n1 ∧ gxC.n0 = B.n1 ∧ A.Has m0 (fun i j => ent 0 (2 * i + j)) ∧ B.Has m0 (fun i j => ent 8 (2 * i + j)) ∧
    gxC.Has m0 (fun i j => ent 16 (2 * i + j)) := ⟨by decide, by decide, by decide, apart_AB, gxAC, by decide⟩

/-- The first entry of `A + B·C` by the GPU: `1+2i + (5)(3i) + (1+i)(1-i)`. -/
example : ∃ m', A.gAddMatmulAA B gxC m0 = .ok m' ∧ m' 0 = some 3 ∧ m' 1 = some 17 := ⟨_, rfl, by decide, by decide⟩

/-! ## C459: factors with other strides -/

/-- The strides of the factors, and where their imaginary parts lie, are not looked at: a matrix stored by columns is multiplied as if it
were stored by rows.  The CPU multiplies it properly. -/
theorem C459_strides_fails :
    (∀ [CommRing α] (r x y : CV2) (a b c d e f : Nat) (m : Buf α),
      r.gAddMatmulAA { x with arrc := a, s0 := b, s1 := c } { y with arrc := d, s0 := e, s1 := f } m = r.gAddMatmulAA x y m) ∧
    (∃ (y : CV2) (m1 m2 : Buf Int), y.n0 = B.n1 ∧ y.n1 = A.n1 ∧ y.arrc = y.arr + 1 ∧
      A.Has m0 (fun i j => ent 0 (2 * i + j)) ∧ B.Has m0 (fun i j => ent 8 (2 * i + j)) ∧ y.Has m0 (fun i j => ent 16 (2 * j + i)) ∧
      A.gAddMatmulAA B y m0 = .ok m1 ∧ A.addMatmulAA B y m0 = .ok m2 ∧
      A.Has m2 (fun a b => ent 0 (2 * a + b) + ((List.range 2).map fun i => ent 8 (2 * a + i) * ent 16 (2 * b + i)).sum) ∧
      ¬ A.Has m1 (fun a b => ent 0 (2 * a + b) + ((List.range 2).map fun i => ent 8 (2 * a + i) * ent 16 (2 * b + i)).sum)) := by
  refine ⟨fun r x y a b c d e f m => rfl, ⟨16, 17, 2, 2, 2, 4⟩, _, _, rfl, rfl, rfl, by decide, by decide, by decide, rfl, rfl, by decide, by decide⟩

/-! ## C460: mixing the middle axis -/

theorem CV3.clear3 {r x : CV3} (hr : r.isRegular = true) (hx : x.isRegular = true) (h : ∀ c, r.Cov c → ¬ x.Cov c) {i j p k l q : Nat}
    (hi : i < r.n0) (hj : j < r.n1) (hp : p < r.n2) (hk : k < x.n0) (hl : l < x.n1) (hq : q < x.n2) :
    Gemm.Clear 2 (r.arr + r.off i j p) (x.arr + x.off k l q) := by
  have a := (CV3.reg_off hr i j p).2.1
  have b := (CV3.reg_off hx k l q).2.1
  refine clear_two (fun e => h _ ⟨i, hi, j, hj, p, hp, .inl rfl⟩ ⟨k, hk, l, hl, q, hq, .inl e⟩)
    (fun e => h _ ⟨i, hi, j, hj, p, hp, .inl rfl⟩ ⟨k, hk, l, hl, q, hq, .inr (by rw [b]; omega)⟩)
    (fun e => h (r.arr + r.off i j p + 1) ⟨i, hi, j, hj, p, hp, .inr (by rw [a]; omega)⟩ ⟨k, hk, l, hl, q, hq, .inl e⟩)

theorem CV3.clear2 {r : CV3} {x : CV2} (hr : r.isRegular = true) (hx : x.isRegular = true) (h : ∀ c, r.Cov c → ¬ x.Cov c) {i j p k l : Nat}
    (hi : i < r.n0) (hj : j < r.n1) (hp : p < r.n2) (hk : k < x.n0) (hl : l < x.n1) :
    Gemm.Clear 2 (r.arr + r.off i j p) (x.arr + x.off k l) := by
  have a := (CV3.reg_off hr i j p).2.1
  have b := (CV2.reg_off hx k l).2
  refine clear_two (fun e => h _ ⟨i, hi, j, hj, p, hp, .inl rfl⟩ ⟨k, hk, l, hl, .inl e⟩)
    (fun e => h _ ⟨i, hi, j, hj, p, hp, .inl rfl⟩ ⟨k, hk, l, hl, .inr (by rw [b]; omega)⟩)
    (fun e => h (r.arr + r.off i j p + 1) ⟨i, hi, j, hj, p, hp, .inr (by rw [a]; omega)⟩ ⟨k, hk, l, hl, .inl e⟩)

/-- `r(a,b,c) += Σ_i x(a,i,c)·y(i,b)` on the GPU for regular operands; sizes that do not fit are refused. -/
theorem C460_mix10 [Ring α] (r x : CV3) (y : CV2) (hr : r.isRegular = true) (hx : x.isRegular = true) (hy : y.isRegular = true)
    (p1 : 0 < r.n1) (p2 : 0 < r.n2) (hxr : ∀ c, r.Cov c → ¬ x.Cov c) (hyr : ∀ c, r.Cov c → ¬ y.Cov c)
    (m : Buf α) (R X : Nat → Nat → Nat → Cx α) (Y : Nat → Nat → Cx α) (hR : r.Has m R) (hX : x.Has m X) (hY : y.Has m Y) :
    if y.n0 = x.n1 ∧ x.n0 = r.n0 ∧ y.n1 = r.n1 ∧ x.n2 = r.n2 then
      ∃ m', r.gAddMix10 x y m = .ok m' ∧
        r.Has m' (fun a b c => R a b c + ((List.range x.n1).map fun i => X a i c * Y i b).sum) ∧ ∀ c, ¬ r.Cov c → m' c = m c
    else r.gAddMix10 x y m = .throw := by
  split
  case isTrue h =>
    obtain ⟨h0, h1, h2, h3⟩ := h
    simp only [CV3.gAddMix10, h0, h1, h2, h3, hr, decide_true, Res.assrt_true, Res.ok_bind, (CV3.reg_off hr 0 0 0).2.2, (CV3.reg_off hx 0 0 0).2.2]
    have eC : ∀ t i j, Gemm.C ⟨.N, .T, r.n2, r.n1, x.n1, x.arr, r.n2, x.n1 * r.n2, y.arr, r.n1, 0, r.arr, r.n2, r.n1 * r.n2, r.n0⟩ 2 t i j =
        r.arr + r.off t j i := by
      intro t i j
      simp only [Gemm.C, (CV3.reg_off hr t j i).1]; omega
    have eA : ∀ t i l, Gemm.A ⟨.N, .T, r.n2, r.n1, x.n1, x.arr, r.n2, x.n1 * r.n2, y.arr, r.n1, 0, r.arr, r.n2, r.n1 * r.n2, r.n0⟩ 2 t i l =
        x.arr + x.off t l i := by
      intro t i l
      simp only [Gemm.A, BlasOp.pos, (CV3.reg_off hx t l i).1, h3]; omega
    have eB : ∀ t l j, Gemm.B ⟨.N, .T, r.n2, r.n1, x.n1, x.arr, r.n2, x.n1 * r.n2, y.arr, r.n1, 0, r.arr, r.n2, r.n1 * r.n2, r.n0⟩ 2 t l j =
        y.arr + y.off l j := by
      intro t l j
      simp only [Gemm.B, BlasOp.pos, (CV2.reg_off hy l j).1, h2]; omega
    have im3 : ∀ {v : CV3} (_ : v.isRegular = true) (i j k : Nat), v.arr + v.off i j k + 1 = v.arrc + v.off i j k := by
      intro v h i j k
      rw [(CV3.reg_off h i j k).2.1]; omega
    have im2 : ∀ {v : CV2} (_ : v.isRegular = true) (i j : Nat), v.arr + v.off i j + 1 = v.arrc + v.off i j := by
      intro v h i j
      rw [(CV2.reg_off h i j).2]; omega
    obtain ⟨m', g1, g2, g3⟩ := cgemm_ok (α := α) ⟨.N, .T, r.n2, r.n1, x.n1, x.arr, r.n2, x.n1 * r.n2, y.arr, r.n1, 0, r.arr, r.n2, r.n1 * r.n2, r.n0⟩
      (by
        simp only [Gemm.ldOk, Bool.and_eq_true, decide_eq_true_eq]
        exact ⟨⟨by rw [if_pos trivial]; omega, by rw [if_neg (by decide)]; omega⟩, by omega⟩)
      (by
        intro t ht i hi j hj
        refine ⟨fun t' ht' i' hi' j' hj' => ?_, fun t' ht' l hl => ⟨fun i' hi' => ?_, fun j' hj' => ?_⟩⟩
        · rw [eC, eC, (CV3.reg_off hr t j i).1, (CV3.reg_off hr t' j' i').1]
          have f1 : t * (r.n1 * r.n2) + j * r.n2 + i = (t * r.n1 + j) * r.n2 + i := by ring
          have f2 : t' * (r.n1 * r.n2) + j' * r.n2 + i' = (t' * r.n1 + j') * r.n2 + i' := by ring
          by_cases e : (t * r.n1 + j) * r.n2 + i = (t' * r.n1 + j') * r.n2 + i'
          · obtain ⟨e1, e2⟩ := divmod_inj hi hi' e
            obtain ⟨e3, e4⟩ := divmod_inj hj hj' e1
            exact .inl ⟨e3, e2, e4⟩
          · refine .inr ?_
            rw [f1, f2]
            unfold Gemm.Clear; omega
        · rw [eC, eA]
          exact CV3.clear3 hr hx hxr ht hj hi (h1.symm ▸ ht') hl (h3.symm ▸ hi')
        · rw [eC, eB]
          exact CV3.clear2 hr hy hyr ht hj hi (h0.symm ▸ hl) (h2.symm ▸ hj')) m
      (fun t i j => R t j i) (fun t i l => X t l i) (fun _ l j => Y l j)
      (fun t ht j hj i hi => by rw [eC, im3 hr]; exact hR t ht j hj i hi)
      (fun t ht i hi l hl => by rw [eA, im3 hx]; exact hX _ (h1.symm ▸ ht) _ hl _ (h3.symm ▸ hi))
      (fun t _ l hl j hj => by rw [eB, im2 hy]; exact hY _ (h0.symm ▸ hl) _ (h2.symm ▸ hj))
    refine ⟨m', g1, ?_, fun c hc => g3 c fun t ht j hj i hi => ?_⟩
    · intro a ha b hb c hc
      have e := g2 a ha b hb c hc
      rw [eC, im3 hr] at e
      exact e
    · rw [eC, im3 hr]
      exact ⟨fun e => hc ⟨t, ht, j, hj, i, hi, .inl e⟩, fun e => hc ⟨t, ht, j, hj, i, hi, .inr e⟩⟩
  case isFalse h =>
    simp only [CV3.gAddMix10]
    by_cases h0 : y.n0 = x.n1
    · by_cases h1 : x.n0 = r.n0
      · by_cases h2 : y.n1 = r.n1
        · have h3 : x.n2 ≠ r.n2 := fun e => h ⟨h0, h1, h2, e⟩
          simp [h0, h1, h2, h3]
        · simp [h0, h1, h2]
      · simp [h0, h1]
    · simp [h0]

/-- A 1×2×2 result, a 1×2×2 factor and a 2×2 matrix. -/
example : (⟨0, 1, 1, 2, 2, 8, 4, 2⟩ : CV3).isRegular = true ∧ (⟨8, 9, 1, 2, 2, 8, 4, 2⟩ : CV3).isRegular = true ∧
    (⟨0, 1, 1, 2, 2, 8, 4, 2⟩ : CV3).Has m0 (fun _ i j => ent 0 (2 * i + j)) ∧
    ∃ m', (⟨0, 1, 1, 2, 2, 8, 4, 2⟩ : CV3).gAddMix10 ⟨8, 9, 1, 2, 2, 8, 4, 2⟩ gxC m0 = .ok m' ∧
      m' 0 = some ((ent 0 0 + (ent 8 0 * ent 16 0 + ent 8 2 * ent 16 2)).re) := ⟨by decide, by decide, by decide, _, rfl, by decide⟩

end complex

end Cnine
