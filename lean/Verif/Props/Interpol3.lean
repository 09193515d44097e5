import Verif.Props.Interpol

/-!
# C581: trilinear interpolation; C582: which points it takes; C583: the transposes of the interpolation matrices

In exact arithmetic.
-/

namespace Cnine

namespace Interp

open CSR InterpSpec

variable {α : Type} [Field α] [LinearOrder α] [IsStrictOrderedRing α] [FloorRing α]

/-! ## Three dimensions -/

/-- The corners of a cell and their weights. -/
def cell3 (x0 x1 x2 : α) : List ((Int × Int × Int) × α) :=
  [((⌊x0⌋, ⌊x1⌋, ⌊x2⌋), (1 - (x0 - ⌊x0⌋)) * (1 - (x1 - ⌊x1⌋)) * (1 - (x2 - ⌊x2⌋))),
   ((⌊x0⌋, ⌊x1⌋, ⌊x2⌋ + 1), (1 - (x0 - ⌊x0⌋)) * (1 - (x1 - ⌊x1⌋)) * (x2 - ⌊x2⌋)),
   ((⌊x0⌋, ⌊x1⌋ + 1, ⌊x2⌋), (1 - (x0 - ⌊x0⌋)) * (x1 - ⌊x1⌋) * (1 - (x2 - ⌊x2⌋))),
   ((⌊x0⌋, ⌊x1⌋ + 1, ⌊x2⌋ + 1), (1 - (x0 - ⌊x0⌋)) * (x1 - ⌊x1⌋) * (x2 - ⌊x2⌋)),
   ((⌊x0⌋ + 1, ⌊x1⌋, ⌊x2⌋), (x0 - ⌊x0⌋) * (1 - (x1 - ⌊x1⌋)) * (1 - (x2 - ⌊x2⌋))),
   ((⌊x0⌋ + 1, ⌊x1⌋, ⌊x2⌋ + 1), (x0 - ⌊x0⌋) * (1 - (x1 - ⌊x1⌋)) * (x2 - ⌊x2⌋)),
   ((⌊x0⌋ + 1, ⌊x1⌋ + 1, ⌊x2⌋), (x0 - ⌊x0⌋) * (x1 - ⌊x1⌋) * (1 - (x2 - ⌊x2⌋))),
   ((⌊x0⌋ + 1, ⌊x1⌋ + 1, ⌊x2⌋ + 1), (x0 - ⌊x0⌋) * (x1 - ⌊x1⌋) * (x2 - ⌊x2⌋))]

omit [IsStrictOrderedRing α] in
theorem corners3_eq (n0 n1 : Int) (x0 x1 x2 : α) :
    corners3 n0 n1 x0 x1 x2 = (cell3 x0 x1 x2).map fun e => (e.1.1 * (n0 * n1) + e.1.2.1 * n1 + e.1.2.2 * 1, e.2) := rfl

omit [IsStrictOrderedRing α] in
theorem corners3_sum (n0 n1 : Int) (x0 x1 x2 : α) : ((corners3 n0 n1 x0 x1 x2).map fun e => e.2).sum = 1 := by
  simp only [corners3, List.map_cons, List.map_nil, List.sum_cons, List.sum_nil]
  ring

omit [IsStrictOrderedRing α] in
theorem cell3_exact (x0 x1 x2 p q r s u v w z : α) :
    ((cell3 x0 x1 x2).map fun e => e.2 * affine3 p q r s u v w z (e.1.1 : α) (e.1.2.1 : α) (e.1.2.2 : α)).sum =
      affine3 p q r s u v w z x0 x1 x2 := by
  simp only [cell3, affine3, List.map_cons, List.map_nil, List.sum_cons, List.sum_nil]
  push_cast
  ring

theorem cell3_in {N0 N1 N2 : Int} {x0 x1 x2 : α} (h0 : 0 ≤ x0) (h0' : x0 ≤ (N0 : α) - 1) (h1 : 0 ≤ x1) (h1' : x1 ≤ (N1 : α) - 1)
    (h2 : 0 ≤ x2) (h2' : x2 ≤ (N2 : α) - 1) :
    ∀ e ∈ cell3 x0 x1 x2, 0 ≤ e.2 ∧ (0 < e.2 → (0 ≤ e.1.1 ∧ e.1.1 < N0 ∧ |x0 - (e.1.1 : α)| < 1) ∧
      (0 ≤ e.1.2.1 ∧ e.1.2.1 < N1 ∧ |x1 - (e.1.2.1 : α)| < 1) ∧ (0 ≤ e.1.2.2 ∧ e.1.2.2 < N2 ∧ |x2 - (e.1.2.2 : α)| < 1)) := by
  have key : ∀ (a b c : Int) (u v w : α), ((a = ⌊x0⌋ ∧ u = 1 - (x0 - ⌊x0⌋)) ∨ (a = ⌊x0⌋ + 1 ∧ u = x0 - ⌊x0⌋)) →
      ((b = ⌊x1⌋ ∧ v = 1 - (x1 - ⌊x1⌋)) ∨ (b = ⌊x1⌋ + 1 ∧ v = x1 - ⌊x1⌋)) →
      ((c = ⌊x2⌋ ∧ w = 1 - (x2 - ⌊x2⌋)) ∨ (c = ⌊x2⌋ + 1 ∧ w = x2 - ⌊x2⌋)) →
      0 ≤ u * v * w ∧ (0 < u * v * w → (0 ≤ a ∧ a < N0 ∧ |x0 - (a : α)| < 1) ∧ (0 ≤ b ∧ b < N1 ∧ |x1 - (b : α)| < 1) ∧
        (0 ≤ c ∧ c < N2 ∧ |x2 - (c : α)| < 1)) := by
    intro a b c u v w ha hb hc
    obtain ⟨a1, a2⟩ := side h0 h0' a u ha
    obtain ⟨b1, b2⟩ := side h1 h1' b v hb
    obtain ⟨c1, c2⟩ := side h2 h2' c w hc
    refine ⟨mul_nonneg (mul_nonneg a1 b1) c1, fun h => ?_⟩
    obtain ⟨k, k3⟩ := pos_mul (mul_nonneg a1 b1) c1 h
    obtain ⟨k1, k2⟩ := pos_mul a1 b1 k
    exact ⟨a2 k1, b2 k2, c2 k3⟩
  intro e he
  simp only [cell3, List.mem_cons, List.not_mem_nil, or_false] at he
  rcases he with rfl | rfl | rfl | rfl | rfl | rfl | rfl | rfl
  · exact key _ _ _ _ _ _ (Or.inl ⟨rfl, rfl⟩) (Or.inl ⟨rfl, rfl⟩) (Or.inl ⟨rfl, rfl⟩)
  · exact key _ _ _ _ _ _ (Or.inl ⟨rfl, rfl⟩) (Or.inl ⟨rfl, rfl⟩) (Or.inr ⟨rfl, rfl⟩)
  · exact key _ _ _ _ _ _ (Or.inl ⟨rfl, rfl⟩) (Or.inr ⟨rfl, rfl⟩) (Or.inl ⟨rfl, rfl⟩)
  · exact key _ _ _ _ _ _ (Or.inl ⟨rfl, rfl⟩) (Or.inr ⟨rfl, rfl⟩) (Or.inr ⟨rfl, rfl⟩)
  · exact key _ _ _ _ _ _ (Or.inr ⟨rfl, rfl⟩) (Or.inl ⟨rfl, rfl⟩) (Or.inl ⟨rfl, rfl⟩)
  · exact key _ _ _ _ _ _ (Or.inr ⟨rfl, rfl⟩) (Or.inl ⟨rfl, rfl⟩) (Or.inr ⟨rfl, rfl⟩)
  · exact key _ _ _ _ _ _ (Or.inr ⟨rfl, rfl⟩) (Or.inr ⟨rfl, rfl⟩) (Or.inl ⟨rfl, rfl⟩)
  · exact key _ _ _ _ _ _ (Or.inr ⟨rfl, rfl⟩) (Or.inr ⟨rfl, rfl⟩) (Or.inr ⟨rfl, rfl⟩)

theorem decode3 {N a b c : Int} (hb0 : 0 ≤ b) (hb : b < N) (hc0 : 0 ≤ c) (hc : c < N) :
    (a * (N * N) + b * N + c * 1) / N / N = a ∧ (a * (N * N) + b * N + c * 1) / N % N = b ∧ (a * (N * N) + b * N + c * 1) % N = c := by
  have e : a * (N * N) + b * N + c * 1 = (a * N + b) * N + c := by ring
  obtain ⟨d1, d2⟩ := decode2 (N := N) (a := a * N + b) hc0 hc
  obtain ⟨d3, d4⟩ := decode2 (N := N) (a := a) hb0 hb
  rw [e, d1, d2]
  exact ⟨d3, d4, rfl⟩

theorem trilinear_has {n : Nat} {M : Nat → Nat → α} {n0 n1 n2 : Int} (h : ∀ i < n, inBox [n0, n1, n2] (M i)) :
    ∃ c, trilinear n 3 M n0 n1 n2 = .ok c ∧ c.n = n ∧ c.m = n0 * n1 ∧
      c.Has ((List.range n).map fun i => stored (corners3 n0 n1 (M i 0) (M i 1) (M i 2))) := by
  obtain ⟨c, e1, e2, e3, e4⟩ := build_ok (n0 * n1) (check3 n0 n1 n2) (fun p : α × α × α => corners3 n0 n1 p.1 p.2.1 p.2.2)
    ((List.range n).map fun i => (M i 0, M i 1, M i 2)) (by
      intro p hp
      obtain ⟨i, hi, rfl⟩ := List.mem_map.mp hp
      have hb := h i (List.mem_range.mp hi)
      have b0 := hb 0 n0 rfl
      have b1 := hb 1 n1 rfl
      have b2 := hb 2 n2 rfl
      unfold check3
      rw [inside_ok b0.1 b0.2, Res.ok_bind, inside_ok b1.1 b1.2, Res.ok_bind, inside_ok b2.1 b2.2])
  refine ⟨c, e1, by simpa using e2, e3, ?_⟩
  rw [List.map_map] at e4
  exact e4

theorem entries3 {n N : Nat} {M : Nat → Nat → α} (h : ∀ i < n, inBox [N, N, N] (M i)) :
    Interpolates3 (listRows 0 ((List.range n).map fun i => stored (corners3 (N : Int) N (M i 0) (M i 1) (M i 2)))) n M N N N := by
  have hb : ∀ i < n, (0 ≤ M i 0 ∧ M i 0 ≤ ((N : Int) : α) - 1) ∧ (0 ≤ M i 1 ∧ M i 1 ≤ ((N : Int) : α) - 1) ∧
      (0 ≤ M i 2 ∧ M i 2 ≤ ((N : Int) : α) - 1) := by
    intro i hi
    exact ⟨h i hi 0 N rfl, h i hi 1 N rfl, h i hi 2 N rfl⟩
  have key : ∀ e ∈ listRows 0 ((List.range n).map fun i => stored (corners3 (N : Int) N (M i 0) (M i 1) (M i 2))), ∃ i < n, e.1 = (i : Int) ∧ 0 < e.2.2 ∧
      ∃ a b c : Int, e.2.1 = a * (N * N) + b * N + c * 1 ∧ (0 ≤ a ∧ a < N ∧ |M i 0 - (a : α)| < 1) ∧
        (0 ≤ b ∧ b < N ∧ |M i 1 - (b : α)| < 1) ∧ (0 ≤ c ∧ c < N ∧ |M i 2 - (c : α)| < 1) := by
    intro e he
    obtain ⟨i, hi, h1, h2⟩ := mem_rows he
    obtain ⟨h3, h4⟩ := mem_stored (corners3_sum _ _ _ _ _) h2
    rw [corners3_eq] at h3
    obtain ⟨q, hq, hqe⟩ := List.mem_map.mp h3
    obtain ⟨b0, b1, b2⟩ := hb i hi
    injection hqe with q1 q2
    have := (cell3_in b0.1 b0.2 b1.1 b1.2 b2.1 b2.2 q hq).2 (by rw [q2]; exact h4)
    exact ⟨i, hi, h1, h4, q.1.1, q.1.2.1, q.1.2.2, q1.symm, this⟩
  refine ⟨?_, ?_, ?_, ?_, ?_⟩
  · intro e he
    obtain ⟨i, hi, h1, _⟩ := key e he
    omega
  · intro e he
    obtain ⟨i, hi, h1, _, a, b, c, hab, ha, hb, hc⟩ := key e he
    rw [hab]
    have e0 : a * ((N : Int) * N) + b * N + c * 1 = (a * N + b) * N + c := by ring
    rw [e0]
    have hp : (0 : Int) ≤ a * N := Int.mul_nonneg ha.1 (by omega)
    have hm : (a + 1) * (N : Int) ≤ N * N := Int.mul_le_mul_of_nonneg_right (by omega) (by omega)
    rw [Int.add_mul] at hm
    have hp2 : (0 : Int) ≤ (a * N + b) * N := Int.mul_nonneg (by omega) (by omega)
    have hm2 : (a * N + b + 1) * (N : Int) ≤ N * N * N := Int.mul_le_mul_of_nonneg_right (by omega) (by omega)
    rw [Int.add_mul] at hm2
    push_cast
    omega
  · intro e he
    obtain ⟨i, hi, _, h2, _⟩ := key e he
    exact h2
  · intro e he
    obtain ⟨i, hi, h1, _, a, b, c, hab, ha, hb, hc⟩ := key e he
    obtain ⟨d1, d2, d3⟩ := decode3 (N := N) (a := a) hb.1 hb.2.1 hc.1 hc.2.1
    rw [h1, Int.toNat_natCast, hab, d1, d2, d3]
    exact ⟨ha.2.2, hb.2.2, hc.2.2⟩
  · intro i hi p q r s u v w z
    obtain ⟨b0, b1, b2⟩ := hb i hi
    unfold value3
    have := filter_row (fun i => stored (corners3 (N : Int) N (M i 0) (M i 1) (M i 2))) n i hi
    rw [this, List.map_map]
    have hin := cell3_in b0.1 b0.2 b1.1 b1.2 b2.1 b2.2
    have := sum_stored (corners3_sum (N : Int) N (M i 0) (M i 1) (M i 2)) (by
      rw [corners3_eq]
      intro e he
      obtain ⟨q, hq, rfl⟩ := List.mem_map.mp he
      exact (hin q hq).1) (fun j => affine3 p q r s u v w z ((j / (N : Int) / (N : Int) : Int) : α) ((j / (N : Int) % (N : Int) : Int) : α)
        ((j % (N : Int) : Int) : α))
    refine Eq.trans this ?_
    rw [corners3_eq, List.map_map, ← cell3_exact (M i 0) (M i 1) (M i 2) p q r s u v w z]
    congr 1
    apply List.map_congr_left
    intro e he
    obtain ⟨g1, g2⟩ := hin e he
    dsimp only [Function.comp]
    rcases lt_or_eq_of_le g1 with c | c
    · obtain ⟨_, hb', hc'⟩ := g2 c
      obtain ⟨d1, d2, d3⟩ := decode3 (N := N) (a := e.1.1) hb'.1 hb'.2.1 hc'.1 hc'.2.1
      rw [d1, d2, d3]
    · rw [← c, zero_mul, zero_mul]

/-- **C581** (partial: cubic grids).  The entries of the matrix interpolate at every set of points of the grid.
Missing: grids with different sides, for which it does not hold (`C581_trilinear_fails`). -/
theorem C581_trilinear_partial (P : Pun α) (n N : Nat) (M : Nat → Nat → α) (h : ∀ i < n, inBox [N, N, N] (M i)) :
    ∃ c es, trilinear n 3 M N N N = .ok c ∧ c.n = n ∧ c.entries P = .ok es ∧ Interpolates3 es n M N N N := by
  obtain ⟨c, e1, e2, e3, e4⟩ := trilinear_has h
  exact ⟨c, _, e1, e2, entries_ok P e4, entries3 h⟩

/-- A point of a cubic grid with different weights at the corners. -/
example : ∀ i < 1, inBox [2, 2, 2] ((fun _ a => if a = 0 then 1 / 4 else if a = 1 then 1 / 2 else 1 : Nat → Nat → ℚ) i) := by
  intro i _ a n h
  match a with
  | 0 => simp at h; subst h; norm_num
  | 1 => simp at h; subst h; norm_num
  | 2 => simp at h; subst h; norm_num
  | a + 3 => simp at h

example : (trilinear 1 3 (fun _ a => if a = 0 then 1 / 4 else if a = 1 then 1 / 2 else 1 : Nat → Nat → ℚ) 2 2 2 >>= fun c => c.entries noPun) =
    .ok [(0, 1, 3 / 8), (0, 3, 3 / 8), (0, 5, 1 / 8), (0, 7, 1 / 8)] := by decide +kernel

/-- **C581**: on a grid of 1×2×3 the row of the point (0,1,0) gives the value at (0,0,2). -/
theorem C581_trilinear_fails : ∃ (n n0 n1 n2 : Nat) (M : Nat → Nat → ℚ), (∀ i < n, inBox [n0, n1, n2] (M i)) ∧
    ∃ c es, trilinear n 3 M n0 n1 n2 = .ok c ∧ c.entries noPun = .ok es ∧ ¬ Interpolates3 es n M n0 n1 n2 := by
  refine ⟨1, 1, 2, 3, fun _ a => if a = 1 then 1 else 0, ?_, ?_⟩
  · intro i _ a n h
    match a with
    | 0 => simp at h; subst h; norm_num
    | 1 => simp at h; subst h; norm_num
    | 2 => simp at h; subst h; norm_num
    | a + 3 => simp at h
  · have e : (trilinear 1 3 (fun _ a => if a = 1 then 1 else 0 : Nat → Nat → ℚ) 1 2 3 >>= fun c => c.entries noPun) = .ok [(0, 2, 1)] := by
      decide +kernel
    obtain ⟨c, h1, h2⟩ := Res.bind_eq_ok.mp e
    refine ⟨c, _, h1, h2, fun h => ?_⟩
    have := h.exact 0 (by omega) 0 0 1 0 0 0 0 0
    revert this
    decide +kernel

/-- **C582**.  The constructor takes exactly the tensors of points with three columns whose points are in the grid; otherwise
it reports an error. -/
theorem C582_trilinear_domain (n d : Nat) (M : Nat → Nat → α) (n0 n1 n2 : Int) :
    ((d = 3 ∧ ∀ i < n, inBox [n0, n1, n2] (M i)) → ∃ c, trilinear n d M n0 n1 n2 = .ok c) ∧
    (¬ (d = 3 ∧ ∀ i < n, inBox [n0, n1, n2] (M i)) → trilinear n d M n0 n1 n2 = .throw) := by
  constructor
  · rintro ⟨rfl, h⟩
    obtain ⟨c, e, _⟩ := trilinear_has h
    exact ⟨c, e⟩
  · intro h
    by_cases hd : d = 3
    · subst hd
      have hx : ∃ i < n, ¬ inBox [n0, n1, n2] (M i) := by
        by_contra hc
        push Not at hc
        exact h ⟨rfl, hc⟩
      obtain ⟨i, hi, hbad⟩ := hx
      have two : ∀ p : α × α × α, check3 n0 n1 n2 p = .ok () ∧ inBox [n0, n1, n2] (fun a => if a = 0 then p.1 else if a = 1 then p.2.1 else p.2.2) ∨
          check3 n0 n1 n2 p = .throw := by
        intro p
        unfold check3
        by_cases c0 : 0 ≤ p.1 ∧ p.1 ≤ (n0 : α) - 1
        · rw [inside_ok c0.1 c0.2, Res.ok_bind]
          by_cases c1 : 0 ≤ p.2.1 ∧ p.2.1 ≤ (n1 : α) - 1
          · rw [inside_ok c1.1 c1.2, Res.ok_bind]
            by_cases c2 : 0 ≤ p.2.2 ∧ p.2.2 ≤ (n2 : α) - 1
            · refine Or.inl ⟨inside_ok c2.1 c2.2, ?_⟩
              intro a m ha
              match a with
              | 0 => simp at ha; subst ha; exact c0
              | 1 => simp at ha; subst ha; exact c1
              | 2 => simp at ha; subst ha; exact c2
              | a + 3 => simp at ha
            · exact Or.inr (inside_throw c2)
          · rw [inside_throw c1]; exact Or.inr rfl
        · rw [inside_throw c0]; exact Or.inr rfl
      have := build_throw (n0 * n1) (check3 n0 n1 n2) (fun p : α × α × α => corners3 n0 n1 p.1 p.2.1 p.2.2)
        ((List.range n).map fun i => (M i 0, M i 1, M i 2))
        (fun p _ => (two p).imp_left And.left) ⟨(M i 0, M i 1, M i 2), List.mem_map.mpr ⟨i, List.mem_range.mpr hi, rfl⟩, by
          rcases two (M i 0, M i 1, M i 2) with ⟨_, c⟩ | c
          · exact absurd (fun a m ha => by
              have := c a m ha
              match a with
              | 0 => exact this
              | 1 => exact this
              | 2 => exact this
              | a + 3 => simp at ha) hbad
          · exact c⟩
      exact this
    · unfold trilinear
      rw [decide_eq_false hd]; rfl

example : trilinear 1 3 (fun _ _ => 3 / 2 : Nat → Nat → ℚ) 3 3 2 = .throw :=
  (C582_trilinear_domain 1 3 _ 3 3 2).2 fun h => by
    have := (h.2 0 (by omega) 2 2 rfl).2
    norm_num at this

/-! ## C583 -/

/-- **C583** (partial: two dimensions, square grids).  The transpose of the matrix can be formed, has the shape of the
transpose and the entries of the matrix with row and column exchanged.
Missing: trilinear interpolation, for which it does not hold (`C583_transpose_fails`). -/
theorem C583_transpose_partial (P : Pun α) (n N : Nat) (M : Nat → Nat → α) (h : ∀ i < n, inBox [N, N] (M i)) :
    ∃ c t es ts, bilinear n 2 M N N = .ok c ∧ c.makeTransp P = .ok t ∧ t.n = (N * N : Nat) ∧ t.m = n ∧
      c.entries P = .ok es ∧ t.entries P = .ok ts ∧ ∀ (i j : Int) (w : α), (j, i, w) ∈ ts ↔ (i, j, w) ∈ es := by
  obtain ⟨c, e1, e2, e3, e4⟩ := bilinear_has h
  have hI := entries2 h
  obtain ⟨t, t1, t2, t3, t4⟩ := makeTransp_ok P e4 (m := N * N) (by rw [e3]; push_cast; rfl) hI.column
  refine ⟨c, t, _, _, e1, t1, t2, by rw [t3, e2], entries_ok P e4, entries_ok P t4, ?_⟩
  intro i j w
  rw [listRows_range, List.mem_flatMap]
  constructor
  · rintro ⟨a, ha, he⟩
    obtain ⟨q, hq, hqe⟩ := List.mem_map.mp he
    unfold col at hq
    obtain ⟨e, he, rfl⟩ := List.mem_map.mp hq
    obtain ⟨h1, h2⟩ := List.mem_filter.mp he
    have h2 := of_decide_eq_true h2
    injection hqe with k1 k2
    injection k2 with k2 k3
    obtain ⟨x, y, z⟩ := e
    dsimp only at h2 k2 k3
    rw [← k1, ← k2, ← k3, ← h2]
    exact h1
  · intro he
    have hc := hI.column _ he
    dsimp only at hc
    obtain ⟨a, ha⟩ := Int.eq_ofNat_of_zero_le hc.1
    refine ⟨a, List.mem_range.mpr (by omega), List.mem_map.mpr ⟨(i, w), ?_, by rw [ha]⟩⟩
    unfold col
    exact List.mem_map.mpr ⟨(i, j, w), List.mem_filter.mpr ⟨he, by simpa using ha⟩, rfl⟩

example : (bilinear 1 2 (fun _ a => if a = 0 then 5 / 4 else 1 / 2 : Nat → Nat → ℚ) 3 3 >>= fun c => c.makeTransp noPun >>= fun t => t.entries noPun) =
    .ok [(3, 0, 3 / 8), (4, 0, 3 / 8), (6, 0, 1 / 8), (7, 0, 1 / 8)] := by decide +kernel

/-- **C583**: the trilinear matrix is declared with `n0*n1` columns; forming its transpose is undefined behaviour already for
one point of a 2×2×2 grid. -/
theorem C583_transpose_fails : ∃ (n N : Nat) (M : Nat → Nat → ℚ), (∀ i < n, inBox [N, N, N] (M i)) ∧
    (trilinear n 3 M N N N >>= fun c => c.makeTransp noPun) = .ub := by
  refine ⟨1, 2, fun _ a => if a = 0 then 1 else 0, ?_, by decide +kernel⟩
  intro i _ a n h
  match a with
  | 0 => simp at h; subst h; norm_num
  | 1 => simp at h; subst h; norm_num
  | 2 => simp at h; subst h; norm_num
  | a + 3 => simp at h

end Interp

end Cnine
