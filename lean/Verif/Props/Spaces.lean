import Mathlib.Analysis.Real.Sqrt
import Mathlib.LinearAlgebra.Matrix.Rank
import Verif.Lemmas.Spaces

/-! # C210–C216 column spaces and connected components -/

namespace Cnine
namespace Space

open Finset

variable {α : Type}

section field
variable [Field α] [LinearOrder α] [IsStrictOrderedRing α]

theorem ip_self_nonneg (n : Nat) (f : Nat → α) : 0 ≤ ip n f f := sum_nonneg fun k _ => mul_self_nonneg _

theorem comb_congr {j : Nat} {c c' : Nat → α} {B B' : Nat → Nat → α} {k : Nat} (h : ∀ i, i < j → c i = c' i)
    (h' : ∀ i, i < j → B i k = B' i k) : comb j c B k = comb j c' B' k :=
  sum_congr rfl fun i hi => by rw [h i (mem_range.1 hi), h' i (mem_range.1 hi)]

theorem comb_succ (j : Nat) (c : Nat → α) (B : Nat → Nat → α) (k : Nat) : comb (j + 1) c B k = comb j c B k + c j * B j k := by
  simp only [comb, sum_range_succ]

/-- A combination of combinations. -/
theorem comb_comb {j i : Nat} (c : Nat → α) {D : Nat → Nat → α} {B X : Nat → Nat → α} {k : Nat}
    (h : ∀ a, a < j → B a k = comb i (D a) X k) : comb j c B k = comb i (fun b => ∑ a ∈ range j, c a * D a b) X k := by
  simp only [comb] at h ⊢
  rw [sum_congr rfl fun a ha => by rw [h a (mem_range.1 ha), mul_sum]]
  rw [sum_comm]
  refine sum_congr rfl fun b _ => ?_
  rw [sum_mul]
  exact sum_congr rfl fun a _ => by ring

/-- Where the loop over the columns stands after `i` of the columns `X`: `nc` columns found, `B` in `T`, `R` in the argument. -/
structure Inv (root : α → α) (n d : Nat) (thr : α) (X : Nat → Nat → α) (i nc : Nat) (B R : Nat → Nat → α) : Prop where
  le : nc ≤ i
  ortho : Ortho n nc B
  span : ∀ a, a < i → ∃ c e : Nat → α, (∀ k, k < n → X a k = comb nc c B k + e k) ∧ ip n e e ≤ thr * thr
  within : ∀ j, j < nc → ∃ c : Nat → α, ∀ k, k < n → B j k = comb i c X k
  left : ∀ a, a < i → ∃ c : Nat → α, ∀ k, k < n → R a k = X a k - comb nc c B k
  rest : ∀ a, i ≤ a → a < d → ∀ k, k < n → R a k = X a k
  zero : ∀ j, nc ≤ j → j < d → ∀ k, k < n → B j k = 0
  first : 0 < i → thr < root (ip n (X 0) (X 0)) → 0 < nc ∧ (∀ k, k < n → B 0 k = 1 / root (ip n (X 0) (X 0)) * X 0 k) ∧
    ∀ a, 0 < a → a < i → ip n (R a) (B 0) = 0

theorem inv_step {root : α → α} (hroot : Root root) {n d : Nat} {thr : α} (hthr : 0 ≤ thr) {X B R : Nat → Nat → α} {i nc : Nat}
    (hi : i < d) (h : Inv root n d thr X i nc B R) {r : Nat → α} (hr : r = off n B (R i) nc) :
    Inv root n d thr X (i + 1) (if thr < root (ip n r r) then nc + 1 else nc)
      (fun a k => if thr < root (ip n r r) ∧ a = nc then B nc k + 1 / root (ip n r r) * r k else B a k)
      (fun a k => if a = i then r k else R a k) := by
  have hXR : ∀ k, k < n → R i k = X i k := h.rest i (le_refl _) hi
  have hrc : ∀ k, k < n → r k = X i k - comb nc (fun j => ip n (off n B (R i) j) (B j)) B k := by
    intro k hk
    rw [hr, off_comb, hXR k hk]
  have hro : ∀ a, a < nc → ip n r (B a) = 0 := by
    intro a ha
    rw [hr]; exact off_ortho h.ortho (R i) nc (le_refl _) a ha
  generalize hcf : (fun j => ip n (off n B (R i) j) (B j)) = cf at hrc
  have hle := h.le
  obtain ⟨hs0, hss⟩ := hroot (ip n r r) (ip_self_nonneg n r)
  generalize hs : root (ip n r r) = s at hs0 hss ⊢
  -- the new column, if it is the first
  have hfirst : i = 0 → r = R 0 ∧ nc = 0 ∧ ip n r r = ip n (X 0) (X 0) := by
    intro e
    subst e
    have : nc = 0 := by omega
    subst this
    refine ⟨by rw [hr]; rfl, rfl, ?_⟩
    exact ip_congr (fun k hk => by rw [hr]; exact hXR k hk) (fun k hk => by rw [hr]; exact hXR k hk)
  by_cases hb : thr < s
  · have hspos : 0 < s := lt_of_le_of_lt hthr hb
    have hz : ∀ k, k < n → B nc k = 0 := h.zero nc (le_refl _) (by omega)
    -- the columns found so far are not touched
    have hold : ∀ a k, a < nc → (if thr < s ∧ a = nc then B nc k + 1 / s * r k else B a k) = B a k :=
      fun a k ha => if_neg fun h => by omega
    have hnew : ∀ k, k < n → (if thr < s ∧ nc = nc then B nc k + 1 / s * r k else B nc k) = 1 / s * r k := by
      intro k hk
      rw [if_pos ⟨hb, rfl⟩, hz k hk, zero_add]
    rw [if_pos hb]
    constructor
    · omega
    · -- orthonormal
      have hself : ip n (fun k => 1 / s * r k) (fun k => 1 / s * r k) = 1 := by
        rw [ip_mul, ip_comm, ip_mul, ← hss]
        field_simp
      have hcross : ∀ a, a < nc → ip n (fun k => 1 / s * r k) (B a) = 0 := by
        intro a ha
        rw [ip_mul, hro a ha, mul_zero]
      intro a b ha hb'
      by_cases ea : a = nc
      · subst ea
        by_cases eb : b = a
        · subst eb
          rw [if_pos rfl]
          exact (ip_congr hnew hnew).trans hself
        · rw [if_neg (Ne.symm eb), ← hcross b (by omega)]
          exact ip_congr hnew fun k _ => hold b k (by omega)
      · by_cases eb : b = nc
        · subst eb
          rw [if_neg ea, ← hcross a (by omega), ip_comm]
          exact ip_congr hnew fun k _ => hold a k (by omega)
        · rw [← h.ortho a b (by omega) (by omega)]
          exact ip_congr (fun k _ => hold a k (by omega)) (fun k _ => hold b k (by omega))
    · -- the columns handled so far
      intro a ha
      by_cases e : a = i
      · subst e
        refine ⟨fun j => if j = nc then s else cf j, fun _ => 0, fun k hk => ?_, ?_⟩
        · rw [comb_succ, hnew k hk, comb_congr (c' := cf) (B' := B) (fun j hj => if_neg (by omega)) (fun j hj => hold j k hj),
            if_pos rfl, hrc k hk]
          field_simp
          ring
        · simp only [ip, mul_zero, sum_const_zero]; exact mul_nonneg hthr hthr
      · obtain ⟨c, er, h1, h2⟩ := h.span a (by omega)
        refine ⟨fun j => if j = nc then 0 else c j, er, fun k hk => ?_, h2⟩
        rw [comb_succ, comb_congr (c' := c) (B' := B) (fun j hj => if_neg (by omega)) (fun j hj => hold j k hj), if_pos rfl, zero_mul,
          add_zero, h1 k hk]
    · -- the columns found are combinations of those of the argument
      intro j hj
      by_cases e : j = nc
      · subst e
        have := h.within
        choose! D hD using this
        refine ⟨fun b => if b = i then 1 / s else -(1 / s) * ∑ a ∈ range j, cf a * D a b, fun k hk => ?_⟩
        rw [hnew k hk, comb_succ, if_pos rfl, hrc k hk, comb_comb cf (fun a ha => hD a ha k hk)]
        rw [comb_congr (c' := fun b => -(1 / s) * ∑ a ∈ range j, cf a * D a b) (B' := X) (fun b hb => if_neg (by omega)) fun _ _ => rfl]
        have : comb i (fun b => -(1 / s) * ∑ a ∈ range j, cf a * D a b) X k =
            -(1 / s) * comb i (fun b => ∑ a ∈ range j, cf a * D a b) X k := by
          simp only [comb]
          rw [mul_sum]
          exact sum_congr rfl fun b _ => by rw [mul_assoc]
        rw [this]; ring
      · obtain ⟨c, hc⟩ := h.within j (by omega)
        refine ⟨fun b => if b = i then 0 else c b, fun k hk => ?_⟩
        rw [hold j k (by omega), hc k hk, comb_succ, if_pos rfl, zero_mul, add_zero]
        exact comb_congr (fun b hb => (if_neg (by omega)).symm) fun _ _ => rfl
    · -- what is left in the argument
      intro a ha
      by_cases e : a = i
      · subst e
        refine ⟨fun j => if j = nc then 0 else cf j, fun k hk => ?_⟩
        rw [if_pos rfl, comb_succ, if_pos rfl, zero_mul, add_zero, hrc k hk,
          comb_congr (c' := cf) (B' := B) (fun j hj => if_neg (by omega)) (fun j hj => hold j k hj)]
      · obtain ⟨c, hc⟩ := h.left a (by omega)
        refine ⟨fun j => if j = nc then 0 else c j, fun k hk => ?_⟩
        rw [if_neg e, comb_succ, if_pos rfl, zero_mul, add_zero, hc k hk,
          comb_congr (c := fun j => if j = nc then 0 else c j) (c' := c) (B' := B) (fun j hj => if_neg (by omega)) (fun j hj => hold j k hj)]
    · intro a ha ha' k hk
      rw [if_neg (by omega)]
      exact h.rest a (by omega) ha' k hk
    · intro j hj hj' k hk
      rw [if_neg (by omega)]
      exact h.zero j (by omega) hj' k hk
    · intro _ ht
      rcases Nat.eq_zero_or_pos i with e | e
      · obtain ⟨e1, e2, e3⟩ := hfirst e
        refine ⟨by omega, fun k hk => ?_, fun a h1 h2 => by omega⟩
        subst e2
        subst e
        rw [hnew k hk, ← e3, hs, e1, hXR k hk]
      · obtain ⟨f1, f2, f3⟩ := h.first e ht
        refine ⟨by omega, fun k hk => by rw [hold 0 k f1]; exact f2 k hk, fun a h1 h2 => ?_⟩
        by_cases ea : a = i
        · rw [← hro 0 f1]
          exact ip_congr (fun k _ => if_pos ea) (fun k _ => hold 0 k f1)
        · rw [← f3 a h1 (by omega)]
          exact ip_congr (fun k _ => if_neg ea) (fun k _ => hold 0 k f1)
  · have hB : ∀ a k, (if thr < s ∧ a = nc then B nc k + 1 / s * r k else B a k) = B a k := fun a k => if_neg fun h => hb h.1
    simp only [hB]
    rw [if_neg hb]
    constructor
    · omega
    · exact h.ortho
    · intro a ha
      by_cases e : a = i
      · subst e
        refine ⟨cf, r, fun k hk => by rw [hrc k hk]; ring, ?_⟩
        rw [← hss]
        have := not_lt.1 hb
        exact mul_le_mul this this hs0 hthr
      · exact h.span a (by omega)
    · intro j hj
      obtain ⟨c, hc⟩ := h.within j (by omega)
      refine ⟨fun b => if b = i then 0 else c b, fun k hk => ?_⟩
      rw [hc k hk, comb_succ, if_pos rfl, zero_mul, add_zero]
      exact comb_congr (fun b hb => (if_neg (by omega)).symm) fun _ _ => rfl
    · intro a ha
      by_cases e : a = i
      · subst e
        exact ⟨cf, fun k hk => by rw [if_pos rfl, hrc k hk]⟩
      · obtain ⟨c, hc⟩ := h.left a (by omega)
        exact ⟨c, fun k hk => by rw [if_neg e, hc k hk]⟩
    · intro a ha ha' k hk
      rw [if_neg (by omega)]
      exact h.rest a (by omega) ha' k hk
    · exact h.zero
    · intro _ ht
      rcases Nat.eq_zero_or_pos i with e | e
      · obtain ⟨e1, e2, e3⟩ := hfirst e
        rw [← e3, hs] at ht
        exact absurd ht hb
      · obtain ⟨f1, f2, f3⟩ := h.first e ht
        refine ⟨f1, f2, fun a h1 h2 => ?_⟩
        by_cases ea : a = i
        · rw [← hro 0 f1]
          exact ip_congr (fun k _ => if_pos ea) (fun k _ => rfl)
        · rw [← f3 a h1 (by omega)]
          exact ip_congr (fun k _ => if_neg ea) (fun k _ => rfl)

/-- No more orthonormal vectors than they have entries. -/
theorem ortho_le {n j : Nat} {B : Nat → Nat → α} (h : Ortho n j B) : j ≤ n := by
  let A : Matrix (Fin j) (Fin n) α := fun a k => B a k
  have e : A * A.transpose = 1 := by
    ext a b
    rw [Matrix.mul_apply, Matrix.one_apply]
    have := h a b a.2 b.2
    rw [ip, Finset.sum_range] at this
    simp only [Fin.val_inj] at this
    exact this
  have h1 := Matrix.rank_mul_le_left A A.transpose
  rw [e, Matrix.rank_one, Fintype.card_fin] at h1
  exact h1.trans (Matrix.rank_le_width A)

/-- The whole constructor: the memory it leaves and the invariant at the end. -/
theorem columnSpace_ok {root : α → α} (hroot : Root root) {thr : α} (hthr : 0 ≤ thr) {M : View} {n d : Nat} (hM : M.WF)
    (hd : M.dims = [n, d]) (hv : M.Distinct) (q : Nat) (ho : TFun.Outside q (n * d) M) (m : Buf α) {X : Nat → Nat → α}
    (hX : Cols m M n d X) :
    ∃ nc m' B R, columnSpace (fun a => a) root (fun x => decide (thr < x)) M q m = .ok (View.new q [n, d], nc, m') ∧
      Cols m' (View.new q [n, d]) n d B ∧ Cols m' M n d R ∧ Inv root n d thr X d nc B R ∧
      ∀ c, (c < q ∨ q + n * d ≤ c) → (∀ k i, k < n → i < d → c ≠ M.cell [k, i]) → m' c = m c := by
  have hl : M.strides.length = 2 := by rw [show M.strides.length = M.dims.length from hM, hd]; rfl
  obtain ⟨s0, s1, hs⟩ : ∃ s0 s1, M.strides = [s0, s1] := by
    match h : M.strides, hl with
    | [a, b], _ => exact ⟨a, b, rfl⟩
  have hp : [n, d].prod = n * d := by simp
  have hT : (View.new q [n, d]).strides = [d, 1] := by simp [View.new, rmStrides_cons]
  have hz := TFun.made_zero (α := α) q [n, d] m
  have hap : M.Apart (View.new q [n, d]) := fun ix jx h1 h2 e =>
    TFun.outside_apart (q := q) (dims := [n, d]) (by rw [hp]; exact ho) jx ix h2 h1 e.symm
  have hX0 : Cols (allocZero m q (asize [n, d])) M n d X := by
    intro k i hk hi
    rw [hz.2 _ (by rw [hp]; exact ho [k, i] (by rw [hd]; exact inRange_two.2 ⟨k, i, hk, hi, rfl⟩))]
    exact hX k i hk hi
  have hB0 : Cols (allocZero m q (asize [n, d])) (View.new q [n, d]) n d (fun _ _ => 0) := by
    intro k i hk hi
    exact hz.1 [k, i] (inRange_two.2 ⟨k, i, hk, hi, rfl⟩)
  obtain ⟨⟨nc, m'⟩, e, B, R, h1, h2, h3, h4⟩ := loop_inv (body := colStep (fun a => a) root (fun x => decide (thr < x)) (View.new q [n, d]) M)
    (fun i (s : Nat × Buf α) => ∃ B R, Cols s.2 (View.new q [n, d]) n d B ∧ Cols s.2 M n d R ∧ Inv root n d thr X i s.1 B R ∧
      ∀ c, (c < q ∨ q + n * d ≤ c) → (∀ k i, k < n → i < d → c ≠ M.cell [k, i]) → s.2 c = m c)
    (s := (0, allocZero m q (asize [n, d])))
    ⟨fun _ _ => 0, X, hB0, hX0, ⟨le_refl _, fun a b ha => by omega, fun a ha => by omega, fun j hj => by omega, fun a ha => by omega,
      fun a _ _ k _ => rfl, fun j _ _ k _ => rfl, fun h => by omega⟩, fun c hc _ => hz.2 c (by rw [hp]; exact hc)⟩ d
    fun i s hi hP => by
      obtain ⟨B, R, h1, h2, h3, h4⟩ := hP
      obtain ⟨nc, m1⟩ := s
      simp only at h1 h2 h3 h4
      have hle := h3.le
      obtain ⟨m2, e, a1, a2, a3⟩ := step_ok root (fun x => decide (thr < x)) hd hs (show (View.new q [n, d]).dims = [n, d] from rfl) hT hv
        (TFun.new_distinct q _) hap hi (show nc < d by omega) m1 h2 h1 rfl
      simp only [decide_eq_true_eq] at e a2
      refine ⟨_, e, _, _, a2, a1, inv_step hroot hthr hi h3 rfl, fun c hc hc' => ?_⟩
      show m2 c = m c
      rw [a3 c (fun k hk => hc' k i hk hi) (fun k hk h => ?_), h4 c hc hc']
      exact TFun.cell_ne (q := q) (dims := [n, d]) (ix := [k, nc]) (inRange_two.2 ⟨k, nc, hk, by omega, rfl⟩) (by rw [hp]; exact hc) h
  refine ⟨nc, m', B, R, ?_, h1, h2, h3, h4⟩
  unfold columnSpace
  rw [hd]
  simp only [List.length_cons, List.length_nil, decide_true, Res.assrt_true, Res.ok_bind, Res.get, List.getElem?_cons_succ,
    List.getElem?_cons_zero]
  rw [e]
  rfl

/-- C210: over an ordered field with square roots the constructor returns; the first `ncols` columns of the new tensor, at most as many
as there are rows and columns, are orthonormal, the others zero, and the view handed out is that of these columns. -/
theorem C210_orthonormal {root : α → α} (hroot : Root root) {thr : α} (hthr : 0 ≤ thr) {M : View} {n d q : Nat} {m : Buf α}
    {X : Nat → Nat → α} (h : Input m M n d q X) :
    ∃ nc m' B, columnSpace (fun a => a) root (fun x => decide (thr < x)) M q m = .ok (View.new q [n, d], nc, m') ∧
      nc ≤ n ∧ nc ≤ d ∧ (∀ k i, k < n → i < d → m' (q + (k * d + i)) = some (if i < nc then B i k else 0)) ∧ Ortho n nc B ∧
      columnView (View.new q [n, d]) nc = .ok ⟨q, [n, nc], [d, 1]⟩ := by
  obtain ⟨nc, m', B, R, e, h1, h2, h3, h4⟩ := columnSpace_ok hroot hthr h.wf h.dims h.distinct q h.outside m h.shows
  have hT : (View.new q [n, d]).strides = [d, 1] := by simp [View.new, rmStrides_cons]
  refine ⟨nc, m', B, e, ortho_le h3.ortho, h3.le, fun k i hk hi => ?_, h3.ortho, ?_⟩
  · have := h1 k i hk hi
    rw [cell2 hT] at this
    rw [show q + (k * d + i) = (View.new q [n, d]).off + (d * k + 1 * i) by simp only [View.new]; rw [Nat.mul_comm]; omega, this]
    split
    · rfl
    · rw [h3.zero i (by omega) hi k hk]
  · have hle := h3.le
    simp only [columnView, View.new, Res.get, List.getElem?_cons_zero, Res.ok_bind, View.blockDims]
    have : gvLe [n, nc] [n, d] = true := by simp [gvLe, hle]
    rw [this, Res.assrt_true, Res.ok_bind]
    simp [rmStrides_cons]

/-- C210: anything but a matrix is refused. -/
theorem C210_refuses (root : α → α) (big : α → Bool) (M : View) (q : Nat) (m : Buf α) (h : M.dims.length ≠ 2) :
    columnSpace (fun a => a) root big M q m = .throw := by
  unfold columnSpace
  simp only [decide_eq_false h]
  rfl

/-- C211: every column of the argument is a combination of the columns returned up to an error not longer than the threshold, and
every column returned is a combination of columns of the argument. -/
theorem C211_span {root : α → α} (hroot : Root root) {thr : α} (hthr : 0 ≤ thr) {M : View} {n d q : Nat} {m : Buf α}
    {X : Nat → Nat → α} (h : Input m M n d q X) {T : View} {nc : Nat} {m' : Buf α}
    (e : columnSpace (fun a => a) root (fun x => decide (thr < x)) M q m = .ok (T, nc, m')) :
    ∃ B : Nat → Nat → α, (∀ k i, k < n → i < nc → m' (T.cell [k, i]) = some (B i k)) ∧
      (∀ a, a < d → ∃ c r : Nat → α, (∀ k, k < n → X a k = comb nc c B k + r k) ∧ ip n r r ≤ thr * thr) ∧
      ∀ j, j < nc → ∃ c : Nat → α, ∀ k, k < n → B j k = comb d c X k := by
  obtain ⟨nc', m'', B, R, e', h1, h2, h3, h4⟩ := columnSpace_ok hroot hthr h.wf h.dims h.distinct q h.outside m h.shows
  rw [e] at e'
  obtain ⟨rfl, rfl, rfl⟩ : T = View.new q [n, d] ∧ nc = nc' ∧ m' = m'' := by simpa using e'
  exact ⟨B, fun k i hk hi => h1 k i hk (lt_of_lt_of_le hi h3.le), h3.span, h3.within⟩

/-- C211: with threshold zero the argument's columns are combinations of those returned, without error. -/
theorem C211_exact {root : α → α} (hroot : Root root) {M : View} {n d q : Nat} {m : Buf α} {X : Nat → Nat → α}
    (h : Input m M n d q X) {T : View} {nc : Nat} {m' : Buf α}
    (e : columnSpace (fun a => a) root (fun x => decide (0 < x)) M q m = .ok (T, nc, m')) :
    ∃ B : Nat → Nat → α, (∀ k i, k < n → i < nc → m' (T.cell [k, i]) = some (B i k)) ∧
      ∀ a, a < d → ∃ c : Nat → α, ∀ k, k < n → X a k = comb nc c B k := by
  obtain ⟨B, h1, h2, -⟩ := C211_span hroot (le_refl 0) h e
  refine ⟨B, h1, fun a ha => ?_⟩
  obtain ⟨c, r, hc, hr⟩ := h2 a ha
  refine ⟨c, fun k hk => ?_⟩
  rw [hc k hk]
  have h0 : ip n r r = 0 := le_antisymm (by simpa using hr) (ip_self_nonneg n r)
  have := (sum_eq_zero_iff_of_nonneg fun k _ => mul_self_nonneg (r k)).1 h0 k (mem_range.2 hk)
  rw [mul_self_eq_zero.1 this, add_zero]

/-- C212: only the new tensor and the argument change, and each column of the argument becomes what is left of it after subtracting a
combination of the columns returned.  Missing: that the argument, a `const` reference, is unchanged, see `C212_argument_fails`. -/
theorem C212_left_partial {root : α → α} (hroot : Root root) {thr : α} (hthr : 0 ≤ thr) {M : View} {n d q : Nat} {m : Buf α}
    {X : Nat → Nat → α} (h : Input m M n d q X) {T : View} {nc : Nat} {m' : Buf α}
    (e : columnSpace (fun a => a) root (fun x => decide (thr < x)) M q m = .ok (T, nc, m')) :
    (∀ c, (c < q ∨ q + n * d ≤ c) → (∀ k i, k < n → i < d → c ≠ M.cell [k, i]) → m' c = m c) ∧
    ∃ B : Nat → Nat → α, (∀ k i, k < n → i < nc → m' (T.cell [k, i]) = some (B i k)) ∧
      ∀ a, a < d → ∃ c : Nat → α, ∀ k, k < n → m' (M.cell [k, a]) = some (X a k - comb nc c B k) := by
  obtain ⟨nc', m'', B, R, e', h1, h2, h3, h4⟩ := columnSpace_ok hroot hthr h.wf h.dims h.distinct q h.outside m h.shows
  rw [e] at e'
  obtain ⟨rfl, rfl, rfl⟩ : T = View.new q [n, d] ∧ nc = nc' ∧ m' = m'' := by simpa using e'
  refine ⟨h4, B, fun k i hk hi => h1 k i hk (lt_of_lt_of_le hi h3.le), fun a ha => ?_⟩
  obtain ⟨c, hc⟩ := h3.left a ha
  exact ⟨c, fun k hk => by rw [h2 k a hk ha, hc k hk]⟩

/-- C212: whenever the first column is longer than the threshold and some later column is not orthogonal to it, that column of the
argument is changed. -/
theorem C212_argument_fails {root : α → α} (hroot : Root root) {thr : α} (hthr : 0 ≤ thr) {M : View} {n d q : Nat} {m : Buf α}
    {X : Nat → Nat → α} (h : Input m M n d q X) (h0 : thr < root (ip n (X 0) (X 0))) {a : Nat} (ha : 0 < a) (had : a < d)
    (hip : ip n (X a) (X 0) ≠ 0) {T : View} {nc : Nat} {m' : Buf α}
    (e : columnSpace (fun a => a) root (fun x => decide (thr < x)) M q m = .ok (T, nc, m')) :
    ∃ k, k < n ∧ m' (M.cell [k, a]) ≠ m (M.cell [k, a]) := by
  obtain ⟨nc', m'', B, R, e', h1, h2, h3, h4⟩ := columnSpace_ok hroot hthr h.wf h.dims h.distinct q h.outside m h.shows
  rw [e] at e'
  obtain ⟨rfl, rfl, rfl⟩ : T = View.new q [n, d] ∧ nc = nc' ∧ m' = m'' := by simpa using e'
  by_contra hne
  push Not at hne
  obtain ⟨-, f2, f3⟩ := h3.first (by omega) h0
  have hR : ∀ k, k < n → R a k = X a k := by
    intro k hk
    have := hne k hk
    rw [h2 k a hk had, h.shows k a hk had] at this
    exact Option.some.inj this
  have := f3 a ha had
  rw [ip_congr hR f2, ip_comm, ip_mul, ip_comm] at this
  have hs : root (ip n (X 0) (X 0)) ≠ 0 := (lt_of_le_of_lt hthr h0).ne'
  rcases mul_eq_zero.1 this with h | h
  · exact absurd h (by simp [hs])
  · exact hip (by rw [ip_comm]; exact h)

end field

theorem root_sqrt : Root Real.sqrt := fun a ha => ⟨Real.sqrt_nonneg a, Real.mul_self_sqrt ha⟩

/-- The matrix with columns (1,0) and (1,1). -/
noncomputable def exMem : Buf ℝ := Buf.ofList [1, 1, 0, 1]

theorem exInput : Input exMem ⟨0, [2, 2], [2, 1]⟩ 2 2 7 (fun i k => if k = 0 then 1 else if i = 0 then 0 else 1) where
  wf := rfl
  dims := rfl
  distinct := by decide
  outside := by
    intro ix hix
    obtain ⟨k, i, hk, hi, rfl⟩ := inRange_two.1 hix
    rw [cell2 (s0 := 2) (s1 := 1) rfl]
    left
    show 0 + (2 * k + 1 * i) < 7
    omega
  shows := by
    intro k i hk hi
    rw [cell2 (s0 := 2) (s1 := 1) rfl]
    interval_cases k <;> interval_cases i <;> rfl

example : ∃ nc m' B, columnSpace (fun a => a) Real.sqrt (fun x => decide ((1 / 10000 : ℝ) < x)) ⟨0, [2, 2], [2, 1]⟩ 7 exMem =
      .ok (View.new 7 [2, 2], nc, m') ∧ nc ≤ 2 ∧ nc ≤ 2 ∧
      (∀ k i, k < 2 → i < 2 → m' (7 + (k * 2 + i)) = some (if i < nc then B i k else 0)) ∧ Ortho 2 nc B ∧
      columnView (View.new 7 [2, 2]) nc = .ok ⟨7, [2, nc], [2, 1]⟩ :=
  C210_orthonormal root_sqrt (by norm_num) exInput

/-- The second column of that matrix is changed. -/
example {T : View} {nc : Nat} {m' : Buf ℝ}
    (e : columnSpace (fun a => a) Real.sqrt (fun x => decide ((1 / 10000 : ℝ) < x)) ⟨0, [2, 2], [2, 1]⟩ 7 exMem = .ok (T, nc, m')) :
    ∃ k, k < 2 ∧ m' ((⟨0, [2, 2], [2, 1]⟩ : View).cell [k, 1]) ≠ exMem ((⟨0, [2, 2], [2, 1]⟩ : View).cell [k, 1]) := by
  refine C212_argument_fails root_sqrt (by norm_num) exInput ?_ (a := 1) (by omega) (by omega) ?_ e
  · have : ip 2 (fun k => if k = 0 then (1 : ℝ) else if (0 : Nat) = 0 then 0 else 1) (fun k => if k = 0 then 1 else if (0 : Nat) = 0 then 0 else 1) = 1 := by
      simp [ip, sum_range_succ]
    rw [this, Real.sqrt_one]
    norm_num
  · simp [ip, sum_range_succ]

/-! ### complex columns -/

/-- Complex numbers with rational parts. -/
structure QI where
  re : ℚ
  im : ℚ
deriving DecidableEq

namespace QI
instance : Zero QI := ⟨⟨0, 0⟩⟩
instance : One QI := ⟨⟨1, 0⟩⟩
instance : Add QI := ⟨fun a b => ⟨a.re + b.re, a.im + b.im⟩⟩
instance : Sub QI := ⟨fun a b => ⟨a.re - b.re, a.im - b.im⟩⟩
instance : Mul QI := ⟨fun a b => ⟨a.re * b.re - a.im * b.im, a.re * b.im + a.im * b.re⟩⟩
instance : Div QI := ⟨fun a b => ⟨(a.re * b.re + a.im * b.im) / (b.re * b.re + b.im * b.im), (a.im * b.re - a.re * b.im) / (b.re * b.re + b.im * b.im)⟩⟩

/-- The complex conjugate. -/
def conj (a : QI) : QI := ⟨a.re, -a.im⟩

/-- The square root of the numbers 0, 1 and 4, which are all that is needed below. -/
def root (a : QI) : QI := if a = ⟨4, 0⟩ then ⟨2, 0⟩ else a
end QI

/-- What is returned and the four cells at 4. -/
def outcome (r : Res (View × Nat × Buf QI)) : Option (View × Nat × List (Option QI)) :=
  match r with
  | .ok (T, nc, m) => some (T, nc, [m 4, m 5, m 6, m 7])
  | _ => none

/-- C213: columns (1,0) and (i,0), which are multiples of each other: two columns are returned, (1,0) and (i,0), whose inner product
is not zero. -/
theorem C213_complex_fails : ∃ m', columnSpace QI.conj QI.root (fun x => decide (1 / 10000 < x.re)) ⟨0, [2, 2], [2, 1]⟩ 4
      (Buf.ofList [⟨1, 0⟩, ⟨0, 1⟩, 0, 0]) = .ok (View.new 4 [2, 2], 2, m') ∧
    m' 4 = some ⟨1, 0⟩ ∧ m' 5 = some ⟨0, 1⟩ ∧ m' 6 = some 0 ∧ m' 7 = some 0 ∧
    QI.conj ⟨1, 0⟩ * ⟨0, 1⟩ + QI.conj 0 * 0 ≠ (0 : QI) := by
  have h : outcome (columnSpace QI.conj QI.root (fun x => decide (1 / 10000 < x.re)) ⟨0, [2, 2], [2, 1]⟩ 4
      (Buf.ofList [⟨1, 0⟩, ⟨0, 1⟩, 0, 0])) = some (View.new 4 [2, 2], 2, [some ⟨1, 0⟩, some ⟨0, 1⟩, some 0, some 0]) := by decide +kernel
  revert h
  generalize columnSpace QI.conj QI.root (fun x => decide (1 / 10000 < x.re)) ⟨0, [2, 2], [2, 1]⟩ 4
      (Buf.ofList [⟨1, 0⟩, ⟨0, 1⟩, 0, 0]) = r
  intro h
  match r, h with
  | .ok (T, nc, m'), h =>
    simp only [outcome, Option.some.injEq, Prod.mk.injEq, List.cons.injEq, and_true] at h
    obtain ⟨rfl, rfl, h4, h5, h6, h7⟩ := h
    exact ⟨m', rfl, h4, h5, h6, h7, by decide +kernel⟩

/-! ### spaces built on `ComplementSpace` -/

section never
variable [Zero α] [One α] [Add α] [Sub α] [Mul α] [Div α]

theorem bind_ne_ok {β γ : Type} {x : Res β} {f : β → Res γ} (h : ∀ a c, f a ≠ .ok c) (c : γ) : (x >>= f) ≠ .ok c := by
  cases x with
  | ok a => exact h a c
  | throw => exact fun e => nomatch e
  | ub => exact fun e => nomatch e

theorem bind_ne_ok' {β γ : Type} {x : Res β} {f : β → Res γ} (h : ∀ a, x ≠ .ok a) (c : γ) : (x >>= f) ≠ .ok c := by
  cases x with
  | ok a => exact absurd rfl (h a)
  | throw => exact fun e => nomatch e
  | ub => exact fun e => nomatch e

theorem assignDefault_ne (dims : List Nat) (c : Unit) : assignDefault dims ≠ .ok c := by
  unfold assignDefault
  exact bind_ne_ok (fun _ _ e => by cases e) c

/-- C214: the constructor of `ComplementSpace` never returns: it assigns a matrix to a tensor without axes. -/
theorem C214_complement_fails (conj root : α → α) (big : α → Bool) (A : View) (q q' : Nat) (m : Buf α) (c : View × Nat × Buf α) :
    complementSpace conj root big A q q' m ≠ .ok c := by
  unfold complementSpace
  refine bind_ne_ok (fun _ _ => ?_) c
  refine bind_ne_ok (fun _ _ => bind_ne_ok (fun _ _ => bind_ne_ok (fun _ _ => bind_ne_ok (fun _ _ => bind_ne_ok (fun _ _ => ?_) _) _) _) _) _
  exact bind_ne_ok' (assignDefault_ne _) _

/-- C214: nor does that of `IntersectionSpace`. -/
theorem C214_intersection_fails (root : α → α) (big : α → Bool) (X Y : View) (qs : Nat → Nat) (m : Buf α) (c : View × Buf α) :
    intersectionSpace root big X Y qs m ≠ .ok c := by
  unfold intersectionSpace
  iterate 12 refine bind_ne_ok (fun _ _ => ?_) _
  exact bind_ne_ok' (C214_complement_fails _ _ _ _ _ _ _) _

/-- C214: nor that of `SymmEigenspace`. -/
theorem C214_eigenspace_fails [Neg α] (conj root : α → α) (big : α → Bool) (X : View) (lam : α) (q q' : Nat) (m : Buf α)
    (c : View × Buf α) : symmEigenspace conj root big X lam q q' m ≠ .ok c := by
  unfold symmEigenspace
  iterate 5 refine bind_ne_ok (fun _ _ => ?_) _
  exact bind_ne_ok' (C214_complement_fails _ _ _ _ _ _ _) _

end never

/-- C214: for every matrix the constructor of `ComplementSpace` throws. -/
theorem C214_throws_fails [Field α] [LinearOrder α] [IsStrictOrderedRing α] {root : α → α} (hroot : Root root) {thr : α} (hthr : 0 ≤ thr)
    {M : View} {n d q : Nat} {m : Buf α} {X : Nat → Nat → α} (h : Input m M n d q X) (q' : Nat) :
    complementSpace (fun a => a) root (fun x => decide (thr < x)) M q q' m = .throw := by
  obtain ⟨nc, m', B, e, h1, h2, h3, h4, h5⟩ := C210_orthonormal hroot hthr h
  have hC : Cols m' ⟨q, [n, nc], [d, 1]⟩ n nc B := by
    intro k i hk hi
    rw [cell2 (s0 := d) (s1 := 1) rfl]
    have := h3 k i hk (by omega)
    rw [if_pos hi] at this
    show m' (q + (d * k + 1 * i)) = _
    rw [show q + (d * k + 1 * i) = q + (k * d + i) by rw [Nat.mul_comm]; omega, this]
  have hD : (⟨q, [n, nc], [d, 1]⟩ : View).Distinct := by
    intro ix jx hix hjx e
    obtain ⟨k, i, hk, hi, rfl⟩ := inRange_two.1 hix
    obtain ⟨l, j, hl, hj, rfl⟩ := inRange_two.1 hjx
    rw [cell2 (s0 := d) (s1 := 1) rfl, cell2 (s0 := d) (s1 := 1) rfl] at e
    exact TFun.new_distinct q [n, d] [k, i] [l, j] (inRange_two.2 ⟨k, i, hk, by omega, rfl⟩) (inRange_two.2 ⟨l, j, hl, by omega, rfl⟩)
      (by rw [cell2 (s0 := d) (s1 := 1) (by simp [View.new, rmStrides_cons]), cell2 (s0 := d) (s1 := 1) (by simp [View.new, rmStrides_cons])]; exact e)
  unfold complementSpace
  rw [e, Res.ok_bind]
  simp only
  rw [h5, Res.ok_bind]
  simp only [List.length_cons, List.length_nil, decide_true, Res.assrt_true, Res.ok_bind, Res.get, List.getElem?_cons_succ,
    List.getElem?_cons_zero]
  obtain ⟨_, e2, -⟩ := loop_inv (fun _ (_ : Unit) => True) (s := ()) (body := fun i _ => do
    let c ← View.col ⟨q, [n, nc], [d, 1]⟩ i
    let _ ← norm2 (fun a => a) c m'
    .ok ()) trivial nc fun i s hi _ => by
      refine ⟨(), ?_, trivial⟩
      rw [col_ok (n := n) (d := nc) (s0 := d) (s1 := 1) rfl rfl hi, Res.ok_bind,
        norm2_ok (d := nc) rfl rfl hD hi m' (B i) (fun k hk => hC k i hk hi)]
      rfl
  rw [e2]
  rfl

example : complementSpace (fun a => a) Real.sqrt (fun x => decide ((1 / 10000 : ℝ) < x)) ⟨0, [2, 2], [2, 1]⟩ 7 20 exMem = .throw :=
  C214_throws_fails root_sqrt (by norm_num) exInput _

/-! ### connected components -/

theorem path_mono {cond : Nat → Nat → Bool} {l l' : List Nat} (h : ∀ x ∈ l, x ∈ l') {a b : Nat} (p : Path cond l a b) :
    Path cond l' a b := by
  induction p with
  | refl => exact Relation.ReflTransGen.refl
  | tail _ e ih => exact ih.tail ⟨e.1, h _ e.2.1, h _ e.2.2⟩

/-- What `grow` does: it moves some nodes to the component, all of them to be reached from `x`, and there is no step from `x` or one of
them to a node left. -/
theorem grow_ok (cond : Nat → Nat → Bool) : ∀ (f : Nat) (comp : List Nat) (x : Nat) (nodes : List Nat), nodes.length < f →
    ∃ new rest, grow cond f comp x nodes = .ok (comp ++ new, rest) ∧ (new ++ rest).Perm nodes ∧ rest.Sublist nodes ∧
      (∀ b ∈ new, Path cond (x :: nodes) x b) ∧ ∀ a ∈ x :: new, ∀ b ∈ rest, cond a b = false := by
  intro f
  induction f with
  | zero => intro _ _ _ h; omega
  | succ f ih =>
    intro comp x nodes hl
    unfold grow
    cases h : nodes.find? (cond x) with
    | none =>
      refine ⟨[], nodes, by simp, by simp, List.Sublist.refl _, by simp, fun a ha b hb => ?_⟩
      obtain rfl : a = x := by simpa using ha
      have := List.find?_eq_none.1 h b hb
      simpa using this
    | some y =>
      have hy : y ∈ nodes := List.mem_of_find?_eq_some h
      have hc : cond x y = true := List.find?_some h
      have hlen : (nodes.erase y).length + 1 = nodes.length := by
        rw [List.length_erase_of_mem hy]
        have := List.length_pos_of_mem hy
        omega
      obtain ⟨n1, r1, e1, p1, q1, h1, c1⟩ := ih (comp ++ [y]) y (nodes.erase y) (by omega)
      have hr1 : r1.length ≤ (nodes.erase y).length := q1.length_le
      obtain ⟨n2, r2, e2, p2, q2, h2, c2⟩ := ih (comp ++ [y] ++ n1) x r1 (by omega)
      refine ⟨y :: n1 ++ n2, r2, ?_, ?_, (q2.trans q1).trans List.erase_sublist, fun b hb => ?_, fun a ha b hb => ?_⟩
      · simp only
        rw [e1, Res.ok_bind]
        simp only
        rw [e2]
        simp
      · have := List.perm_cons_erase hy
        refine List.Perm.trans ?_ this.symm
        simp only [List.cons_append]
        refine List.Perm.cons y ?_
        rw [List.append_assoc]
        exact ((p2.append_left n1).trans p1)
      · have hstep : Path cond (x :: nodes) x y := Relation.ReflTransGen.single ⟨hc, by simp, by simp [hy]⟩
        rcases List.mem_append.1 hb with hb | hb
        · rcases List.mem_cons.1 hb with rfl | hb
          · exact hstep
          · refine hstep.trans (path_mono (fun z hz => ?_) (h1 b hb))
            rcases List.mem_cons.1 hz with rfl | hz
            · simp [hy]
            · exact List.mem_cons_of_mem _ (List.mem_of_mem_erase hz)
        · refine path_mono (fun z hz => ?_) (h2 b hb)
          rcases List.mem_cons.1 hz with rfl | hz
          · simp
          · exact List.mem_cons_of_mem _ (List.mem_of_mem_erase (q1.subset hz))
      · have hb1 : b ∈ r1 := q2.subset hb
        rcases List.mem_cons.1 ha with rfl | ha
        · exact c2 a (by simp) b hb
        · rcases List.mem_append.1 ha with ha | ha
          · exact c1 a ha b hb1
          · exact c2 a (List.mem_cons_of_mem _ ha) b hb

/-- The lists are those the constructor builds: each starts with a node and holds exactly the nodes to be reached from it among those
not in an earlier list. -/
def Split (cond : Nat → Nat → Bool) : List Nat → List (List Nat) → Prop
  | nodes, [] => nodes = []
  | nodes, comp :: rest => ∃ x left, (comp ++ left).Perm nodes ∧ comp.head? = some x ∧ (∀ b, b ∈ comp ↔ b ∈ nodes ∧ Path cond nodes x b) ∧
      Split cond left rest

theorem components_ok (cond : Nat → Nat → Bool) : ∀ (f : Nat) (nodes : List Nat), nodes.Nodup → nodes.length ≤ f →
    ∃ cs, components cond f nodes = .ok cs ∧ Split cond nodes cs := by
  intro f
  induction f with
  | zero =>
    intro nodes _ hl
    obtain rfl : nodes = [] := List.length_eq_zero_iff.1 (by omega)
    exact ⟨[], rfl, rfl⟩
  | succ f ih =>
    intro nodes hn hl
    match nodes with
    | [] => exact ⟨[], rfl, rfl⟩
    | x :: nodes =>
      obtain ⟨new, rest, e, p, q, h, c⟩ := grow_ok cond (nodes.length + 1) [x] x nodes (by omega)
      have hq := q.length_le
      obtain ⟨cs, e2, hs⟩ := ih rest ((List.nodup_cons.1 hn).2.sublist q) (by simp at hl; omega)
      have hp : ([x] ++ new ++ rest).Perm (x :: nodes) := by simpa using p.cons x
      refine ⟨([x] ++ new) :: cs, ?_, x, rest, hp, rfl, fun b => ⟨fun hb => ?_, fun hb => ?_⟩, hs⟩
      · simp only [components]
        rw [e, Res.ok_bind]
        simp only
        rw [e2]
        rfl
      · refine ⟨hp.subset (by simp only [List.mem_append] at hb ⊢; exact Or.inl hb), ?_⟩
        rcases List.mem_append.1 hb with hb | hb
        · obtain rfl : b = x := by simpa using hb
          exact Relation.ReflTransGen.refl
        · exact h b hb
      · obtain ⟨-, hb⟩ := hb
        induction hb with
        | refl => simp
        | tail _ hstep ihb =>
          rename_i a b _
          obtain ⟨hab, _, hbn⟩ := hstep
          rcases List.mem_append.1 (hp.symm.subset hbn) with hb | hb
          · exact hb
          · rw [c a (by simpa using ihb) b hb] at hab
            exact absurd hab (by simp)

theorem split_perm {cond : Nat → Nat → Bool} : ∀ {cs : List (List Nat)} {nodes : List Nat}, Split cond nodes cs → cs.flatten.Perm nodes := by
  intro cs
  induction cs with
  | nil => intro nodes h; rw [show nodes = [] from h]; exact List.Perm.refl _
  | cons comp rest ih =>
    intro nodes h
    obtain ⟨x, left, p, -, -, hs⟩ := h
    exact ((ih hs).append_left comp).trans p

/-- C215: the lists together are the nodes, each once, and no list is empty. -/
theorem C215_partition (cond : Nat → Nat → Bool) (nodes : List Nat) (hn : nodes.Nodup) :
    ∃ cs, components cond nodes.length nodes = .ok cs ∧ cs.flatten.Perm nodes ∧ ∀ c ∈ cs, c ≠ [] := by
  obtain ⟨cs, e, h⟩ := components_ok cond _ nodes hn (le_refl _)
  refine ⟨cs, e, split_perm h, ?_⟩
  clear e
  induction cs generalizing nodes with
  | nil => simp
  | cons comp rest ih =>
    obtain ⟨x, left, p, hx, -, hs⟩ := h
    intro c hc
    rcases List.mem_cons.1 hc with rfl | hc
    · intro e; rw [e] at hx; cases hx
    · exact ih left ((List.nodup_append.1 (p.symm.nodup hn)).2.1) hs c hc

/-- C215: two nodes are in the same list exactly if there is a path between them, provided the condition is symmetric. -/
theorem C215_connected (cond : Nat → Nat → Bool) (hsym : ∀ a b, cond a b = cond b a) (nodes : List Nat) (hn : nodes.Nodup)
    {cs : List (List Nat)} (e : components cond nodes.length nodes = .ok cs) {a b : Nat} (ha : a ∈ nodes) (hb : b ∈ nodes) :
    (∃ c ∈ cs, a ∈ c ∧ b ∈ c) ↔ Path cond nodes a b := by
  obtain ⟨cs', e', h⟩ := components_ok cond _ nodes hn (le_refl _)
  rw [e] at e'
  obtain rfl : cs = cs' := by simpa using e'
  clear e e'
  have hsymP : ∀ (l : List Nat) {u v : Nat}, Path cond l u v → Path cond l v u := by
    intro l u v p
    induction p with
    | refl => exact Relation.ReflTransGen.refl
    | tail _ s ih => exact (Relation.ReflTransGen.single ⟨by rw [hsym]; exact s.1, s.2.2, s.2.1⟩).trans ih
  induction cs generalizing nodes with
  | nil => rw [show nodes = [] from h] at ha; simp at ha
  | cons comp rest ih =>
    obtain ⟨x, left, p, hx, hc, hs⟩ := h
    have hd := p.symm.nodup hn
    have hleft := (List.nodup_append.1 hd).2.1
    have hmem : ∀ {u}, u ∈ nodes → u ∈ comp ∨ u ∈ left := fun hu => List.mem_append.1 (p.symm.subset hu)
    have hdis : ∀ {u}, u ∈ comp → u ∈ left → False := fun h1 h2 => (List.nodup_append.1 hd).2.2 _ h1 _ h2 rfl
    have hsub : ∀ u ∈ left, u ∈ nodes := fun u hu => p.subset (List.mem_append.2 (Or.inr hu))
    -- a path starting outside the component stays outside
    have hstay : ∀ {u v}, u ∈ left → Path cond nodes u v → Path cond left u v ∧ v ∈ left := by
      intro u v hu pv
      induction pv with
      | refl => exact ⟨Relation.ReflTransGen.refl, hu⟩
      | tail _ s ih2 =>
        rename_i v w _
        obtain ⟨i1, i2⟩ := ih2
        rcases hmem s.2.2 with hw | hw
        · exfalso
          have h3 := (hc w).1 hw
          have h4 : Path cond nodes x v := h3.2.trans (Relation.ReflTransGen.single ⟨by rw [hsym]; exact s.1, s.2.2, s.2.1⟩)
          exact hdis ((hc v).2 ⟨s.2.1, h4⟩) i2
        · exact ⟨i1.tail ⟨s.1, i2, hw⟩, hw⟩
    rcases hmem ha with ha' | ha'
    · constructor
      · rintro ⟨c, hcm, h1, h2⟩
        rcases List.mem_cons.1 hcm with rfl | hcm
        · exact (hsymP _ ((hc a).1 h1).2).trans ((hc b).1 h2).2
        · have : a ∈ left := (split_perm hs).subset (List.mem_flatten.2 ⟨c, hcm, h1⟩)
          exact absurd this fun h => hdis ha' h
      · intro pab
        exact ⟨comp, by simp, ha', (hc b).2 ⟨hb, ((hc a).1 ha').2.trans pab⟩⟩
    · constructor
      · rintro ⟨c, hcm, h1, h2⟩
        rcases List.mem_cons.1 hcm with rfl | hcm
        · exact absurd ha' fun h => hdis h1 h
        · have hb' : b ∈ left := (split_perm hs).subset (List.mem_flatten.2 ⟨c, hcm, h2⟩)
          exact path_mono hsub ((ih left hleft ha' hb' hs).1 ⟨c, hcm, h1, h2⟩)
      · intro pab
        obtain ⟨i1, i2⟩ := hstay ha' pab
        obtain ⟨c, hcm, h1, h2⟩ := (ih left hleft ha' i2 hs).2 i1
        exact ⟨c, List.mem_cons_of_mem _ hcm, h1, h2⟩

/-- C216: for any condition each list holds the nodes to be reached from its first node among those not in an earlier list.  Missing:
that no condition holds between different lists, see `C216_directed_fails`. -/
theorem C216_reach_partial (cond : Nat → Nat → Bool) (nodes : List Nat) (hn : nodes.Nodup) :
    ∃ cs, components cond nodes.length nodes = .ok cs ∧ Split cond nodes cs := components_ok cond _ nodes hn (le_refl _)

/-- C216: condition from 1 to 0 only, as it may be for `abs(inp(Um.col(i),Vm.col(j)))>precision` in `BlockDiagonalize`: the nodes end
in different lists. -/
theorem C216_directed_fails : componentsOf (fun a b => decide (a = 1 ∧ b = 0)) 2 = .ok [[0], [1]] := by decide

/-- Nodes 0, 2 and 3 are connected through 3. -/
example : componentsOf (fun a b => decide ((a = 0 ∧ b = 3) ∨ (a = 3 ∧ b = 0) ∨ (a = 3 ∧ b = 2) ∨ (a = 2 ∧ b = 3))) 4 = .ok [[0, 3, 2], [1]] := by
  decide

example : ∀ a b : Nat, decide ((a = 0 ∧ b = 3) ∨ (a = 3 ∧ b = 0) ∨ (a = 3 ∧ b = 2) ∨ (a = 2 ∧ b = 3)) =
    decide ((b = 0 ∧ a = 3) ∨ (b = 3 ∧ a = 0) ∨ (b = 3 ∧ a = 2) ∨ (b = 2 ∧ a = 3)) := by
  intro a b
  rw [decide_eq_decide]
  tauto

end Space
end Cnine
