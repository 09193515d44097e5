import Verif.Lemmas.Interpol
import Mathlib.Data.Rat.Floor
import Mathlib.Tactic.NormNum

/-!
# C579: bilinear interpolation; C580: which points it takes; C581: trilinear interpolation; C582: which points it takes;
C583: the transposes of the interpolation matrices

In exact arithmetic.
-/

namespace Cnine

namespace Interp

open CSR InterpSpec

variable {α : Type} [Field α] [LinearOrder α] [IsStrictOrderedRing α] [FloorRing α]

/-! ## Two dimensions -/

/-- The corners of a cell and their weights. -/
def cell2 (x0 x1 : α) : List ((Int × Int) × α) :=
  [((⌊x0⌋, ⌊x1⌋), (1 - (x0 - ⌊x0⌋)) * (1 - (x1 - ⌊x1⌋))), ((⌊x0⌋, ⌊x1⌋ + 1), (1 - (x0 - ⌊x0⌋)) * (x1 - ⌊x1⌋)),
   ((⌊x0⌋ + 1, ⌊x1⌋), (x0 - ⌊x0⌋) * (1 - (x1 - ⌊x1⌋))), ((⌊x0⌋ + 1, ⌊x1⌋ + 1), (x0 - ⌊x0⌋) * (x1 - ⌊x1⌋))]

omit [IsStrictOrderedRing α] in
theorem corners2_eq (n0 : Int) (x0 x1 : α) : corners2 n0 x0 x1 = (cell2 x0 x1).map fun e => (e.1.1 * n0 + e.1.2, e.2) := rfl

omit [IsStrictOrderedRing α] in
theorem corners2_sum (n0 : Int) (x0 x1 : α) : ((corners2 n0 x0 x1).map fun e => e.2).sum = 1 := by
  simp only [corners2, List.map_cons, List.map_nil, List.sum_cons, List.sum_nil]
  ring

omit [IsStrictOrderedRing α] in
theorem cell2_exact (x0 x1 p q r s : α) :
    ((cell2 x0 x1).map fun e => e.2 * affine2 p q r s (e.1.1 : α) (e.1.2 : α)).sum = affine2 p q r s x0 x1 := by
  simp only [cell2, affine2, List.map_cons, List.map_nil, List.sum_cons, List.sum_nil]
  push_cast
  ring

/-- One coordinate of a corner. -/
theorem side {N : Int} {x : α} (h0 : 0 ≤ x) (h1 : x ≤ (N : α) - 1) (a : Int) (w : α)
    (h : (a = ⌊x⌋ ∧ w = 1 - (x - ⌊x⌋)) ∨ (a = ⌊x⌋ + 1 ∧ w = x - ⌊x⌋)) :
    0 ≤ w ∧ (0 < w → 0 ≤ a ∧ a < N ∧ |x - (a : α)| < 1) := by
  obtain ⟨p1, p2, p3, p4, p5⟩ := part_ok h0 h1
  rcases h with ⟨rfl, rfl⟩ | ⟨rfl, rfl⟩
  · exact ⟨by linarith, fun _ => ⟨p1, p2, abs_lt.mpr ⟨by linarith, p4⟩⟩⟩
  · refine ⟨p3, fun hw => ⟨by omega, p5 hw, ?_⟩⟩
    push_cast
    exact abs_lt.mpr ⟨by linarith, by linarith⟩

theorem pos_mul {u v : α} (hu : 0 ≤ u) (hv : 0 ≤ v) (h : 0 < u * v) : 0 < u ∧ 0 < v := by
  refine ⟨lt_of_le_of_ne hu fun e => ?_, lt_of_le_of_ne hv fun e => ?_⟩
  · rw [← e, zero_mul] at h; exact lt_irrefl _ h
  · rw [← e, mul_zero] at h; exact lt_irrefl _ h

theorem cell2_in {N0 N1 : Int} {x0 x1 : α} (h0 : 0 ≤ x0) (h0' : x0 ≤ (N0 : α) - 1) (h1 : 0 ≤ x1) (h1' : x1 ≤ (N1 : α) - 1) :
    ∀ e ∈ cell2 x0 x1, 0 ≤ e.2 ∧ (0 < e.2 → (0 ≤ e.1.1 ∧ e.1.1 < N0 ∧ |x0 - (e.1.1 : α)| < 1) ∧
      (0 ≤ e.1.2 ∧ e.1.2 < N1 ∧ |x1 - (e.1.2 : α)| < 1)) := by
  have key : ∀ (a b : Int) (u v : α), ((a = ⌊x0⌋ ∧ u = 1 - (x0 - ⌊x0⌋)) ∨ (a = ⌊x0⌋ + 1 ∧ u = x0 - ⌊x0⌋)) →
      ((b = ⌊x1⌋ ∧ v = 1 - (x1 - ⌊x1⌋)) ∨ (b = ⌊x1⌋ + 1 ∧ v = x1 - ⌊x1⌋)) →
      0 ≤ u * v ∧ (0 < u * v → (0 ≤ a ∧ a < N0 ∧ |x0 - (a : α)| < 1) ∧ (0 ≤ b ∧ b < N1 ∧ |x1 - (b : α)| < 1)) := by
    intro a b u v ha hb
    obtain ⟨a1, a2⟩ := side h0 h0' a u ha
    obtain ⟨b1, b2⟩ := side h1 h1' b v hb
    refine ⟨mul_nonneg a1 b1, fun h => ?_⟩
    obtain ⟨k1, k2⟩ := pos_mul a1 b1 h
    exact ⟨a2 k1, b2 k2⟩
  intro e he
  simp only [cell2, List.mem_cons, List.not_mem_nil, or_false] at he
  rcases he with rfl | rfl | rfl | rfl
  · exact key _ _ _ _ (Or.inl ⟨rfl, rfl⟩) (Or.inl ⟨rfl, rfl⟩)
  · exact key _ _ _ _ (Or.inl ⟨rfl, rfl⟩) (Or.inr ⟨rfl, rfl⟩)
  · exact key _ _ _ _ (Or.inr ⟨rfl, rfl⟩) (Or.inl ⟨rfl, rfl⟩)
  · exact key _ _ _ _ (Or.inr ⟨rfl, rfl⟩) (Or.inr ⟨rfl, rfl⟩)

/-- The row and the column of a sample of an `N×N` grid. -/
theorem decode2 {N a b : Int} (hb0 : 0 ≤ b) (hb : b < N) : (a * N + b) / N = a ∧ (a * N + b) % N = b := by
  have hN : 0 < N := by omega
  constructor
  · rw [Int.add_comm, Int.add_mul_ediv_right _ _ (by omega), Int.ediv_eq_zero_of_lt hb0 hb, Int.zero_add]
  · rw [Int.add_comm, Int.add_mul_emod_self_right, Int.emod_eq_of_lt hb0 hb]

theorem bilinear_has {n : Nat} {M : Nat → Nat → α} {n0 n1 : Int} (h : ∀ i < n, inBox [n0, n1] (M i)) :
    ∃ c, bilinear n 2 M n0 n1 = .ok c ∧ c.n = n ∧ c.m = n0 * n1 ∧
      c.Has ((List.range n).map fun i => stored (corners2 n0 (M i 0) (M i 1))) := by
  obtain ⟨c, e1, e2, e3, e4⟩ := build_ok (n0 * n1) (check2 n0 n1) (fun p : α × α => corners2 n0 p.1 p.2)
    ((List.range n).map fun i => (M i 0, M i 1)) (by
      intro p hp
      obtain ⟨i, hi, rfl⟩ := List.mem_map.mp hp
      have hb := h i (List.mem_range.mp hi)
      have b0 := hb 0 n0 rfl
      have b1 := hb 1 n1 rfl
      unfold check2
      rw [inside_ok b0.1 b0.2, Res.ok_bind, inside_ok b1.1 b1.2])
  refine ⟨c, e1, by simpa using e2, e3, ?_⟩
  rw [List.map_map] at e4
  exact e4

theorem entries2 {n N : Nat} {M : Nat → Nat → α} (h : ∀ i < n, inBox [N, N] (M i)) :
    Interpolates2 (listRows 0 ((List.range n).map fun i => stored (corners2 (N : Int) (M i 0) (M i 1)))) n M N N := by
  have hb : ∀ i < n, (0 ≤ M i 0 ∧ M i 0 ≤ ((N : Int) : α) - 1) ∧ (0 ≤ M i 1 ∧ M i 1 ≤ ((N : Int) : α) - 1) := by
    intro i hi
    exact ⟨h i hi 0 N rfl, h i hi 1 N rfl⟩
  have key : ∀ e ∈ listRows 0 ((List.range n).map fun i => stored (corners2 (N : Int) (M i 0) (M i 1))), ∃ i < n, e.1 = (i : Int) ∧ 0 < e.2.2 ∧
      ∃ a b : Int, e.2.1 = a * N + b ∧ (0 ≤ a ∧ a < N ∧ |M i 0 - (a : α)| < 1) ∧ (0 ≤ b ∧ b < N ∧ |M i 1 - (b : α)| < 1) := by
    intro e he
    obtain ⟨i, hi, h1, h2⟩ := mem_rows he
    obtain ⟨h3, h4⟩ := mem_stored (corners2_sum _ _ _) h2
    rw [corners2_eq] at h3
    obtain ⟨q, hq, hqe⟩ := List.mem_map.mp h3
    obtain ⟨b0, b1⟩ := hb i hi
    injection hqe with q1 q2
    have := (cell2_in b0.1 b0.2 b1.1 b1.2 q hq).2 (by rw [q2]; exact h4)
    exact ⟨i, hi, h1, h4, q.1.1, q.1.2, q1.symm, this⟩
  refine ⟨?_, ?_, ?_, ?_, ?_⟩
  · intro e he
    obtain ⟨i, hi, h1, _⟩ := key e he
    omega
  · intro e he
    obtain ⟨i, hi, h1, _, a, b, hab, ha, hb⟩ := key e he
    rw [hab]
    have hp : (0 : Int) ≤ a * N := Int.mul_nonneg ha.1 (by omega)
    have hm : (a + 1) * (N : Int) ≤ N * N := Int.mul_le_mul_of_nonneg_right (by omega) (by omega)
    rw [Int.add_mul] at hm
    push_cast
    omega
  · intro e he
    obtain ⟨i, hi, _, h2, _⟩ := key e he
    exact h2
  · intro e he
    obtain ⟨i, hi, h1, _, a, b, hab, ha, hb⟩ := key e he
    obtain ⟨d1, d2⟩ := decode2 (N := N) (a := a) hb.1 hb.2.1
    rw [h1, Int.toNat_natCast, hab, d1, d2]
    exact ⟨ha.2.2, hb.2.2⟩
  · intro i hi p q r s
    obtain ⟨b0, b1⟩ := hb i hi
    unfold value2
    have := filter_row (fun i => stored (corners2 (N : Int) (M i 0) (M i 1))) n i hi
    rw [this, List.map_map]
    have hin := cell2_in b0.1 b0.2 b1.1 b1.2
    have := sum_stored (corners2_sum (N : Int) (M i 0) (M i 1)) (by
      rw [corners2_eq]
      intro e he
      obtain ⟨q, hq, rfl⟩ := List.mem_map.mp he
      exact (hin q hq).1) (fun j => affine2 p q r s ((j / (N : Int) : Int) : α) ((j % (N : Int) : Int) : α))
    refine Eq.trans this ?_
    rw [corners2_eq, List.map_map, ← cell2_exact (M i 0) (M i 1) p q r s]
    congr 1
    apply List.map_congr_left
    intro e he
    obtain ⟨g1, g2⟩ := hin e he
    dsimp only [Function.comp]
    rcases lt_or_eq_of_le g1 with c | c
    · obtain ⟨_, hb'⟩ := g2 c
      obtain ⟨d1, d2⟩ := decode2 (N := N) (a := e.1.1) hb'.1 hb'.2.1
      rw [d1, d2]
    · rw [← c, zero_mul, zero_mul]

/-- **C579** (partial: square grids).  The matrix interpolates at every set of points of the grid.
Missing: grids with different sides, for which it does not hold (`C579_bilinear_fails`). -/
theorem C579_bilinear_partial (P : Pun α) (n N : Nat) (M : Nat → Nat → α) (h : ∀ i < n, inBox [N, N] (M i)) :
    ∃ c es, bilinear n 2 M N N = .ok c ∧ c.n = n ∧ c.m = (N * N : Nat) ∧ c.entries P = .ok es ∧ Interpolates2 es n M N N := by
  obtain ⟨c, e1, e2, e3, e4⟩ := bilinear_has h
  exact ⟨c, _, e1, e2, by rw [e3]; push_cast; rfl, entries_ok P e4, entries2 h⟩

/-- A point of a square grid with different weights at the corners. -/
example : ∀ i < 1, inBox [3, 3] ((fun _ a => if a = 0 then 5 / 4 else 1 / 2 : Nat → Nat → ℚ) i) := by
  intro i _ a n h
  match a with
  | 0 => simp at h; subst h; norm_num
  | 1 => simp at h; subst h; norm_num
  | a + 2 => simp at h

/-- Reinterpretation of numbers, not used by these matrices. -/
def noPun : Pun ℚ := ⟨fun _ => 0, fun _ => 0, fun i => i⟩

example : (bilinear 1 2 (fun _ a => if a = 0 then 5 / 4 else 1 / 2 : Nat → Nat → ℚ) 3 3 >>= fun c => c.entries noPun) =
    .ok [(0, 3, 3 / 8), (0, 4, 3 / 8), (0, 6, 1 / 8), (0, 7, 1 / 8)] := by decide +kernel

/-- **C579**: on a grid of 2×3 the row of the point (1,0) gives the value at (0,2). -/
theorem C579_bilinear_fails : ∃ (n n0 n1 : Nat) (M : Nat → Nat → ℚ), (∀ i < n, inBox [n0, n1] (M i)) ∧
    ∃ c es, bilinear n 2 M n0 n1 = .ok c ∧ c.entries noPun = .ok es ∧ ¬ Interpolates2 es n M n0 n1 := by
  refine ⟨1, 2, 3, fun _ a => if a = 0 then 1 else 0, ?_, ?_⟩
  · intro i _ a n h
    match a with
    | 0 => simp at h; subst h; norm_num
    | 1 => simp at h; subst h; norm_num
    | a + 2 => simp at h
  · have e : (bilinear 1 2 (fun _ a => if a = 0 then 1 else 0 : Nat → Nat → ℚ) 2 3 >>= fun c => c.entries noPun) = .ok [(0, 2, 1)] := by
      decide +kernel
    obtain ⟨c, h1, h2⟩ := Res.bind_eq_ok.mp e
    refine ⟨c, _, h1, h2, fun h => ?_⟩
    have := h.exact 0 (by omega) 0 1 0 0
    revert this
    decide +kernel

/-- **C580**.  The constructor takes exactly the tensors of points with two columns whose points are in the grid; otherwise
it reports an error. -/
theorem C580_bilinear_domain (n d : Nat) (M : Nat → Nat → α) (n0 n1 : Int) :
    ((d = 2 ∧ ∀ i < n, inBox [n0, n1] (M i)) → ∃ c, bilinear n d M n0 n1 = .ok c) ∧
    (¬ (d = 2 ∧ ∀ i < n, inBox [n0, n1] (M i)) → bilinear n d M n0 n1 = .throw) := by
  constructor
  · rintro ⟨rfl, h⟩
    obtain ⟨c, e, _⟩ := bilinear_has h
    exact ⟨c, e⟩
  · intro h
    by_cases hd : d = 2
    · subst hd
      have hx : ∃ i < n, ¬ inBox [n0, n1] (M i) := by
        by_contra hc
        push Not at hc
        exact h ⟨rfl, hc⟩
      obtain ⟨i, hi, hbad⟩ := hx
      have two : ∀ p : α × α, check2 n0 n1 p = .ok () ∨ check2 n0 n1 p = .throw := by
        intro p
        unfold check2
        by_cases c0 : 0 ≤ p.1 ∧ p.1 ≤ (n0 : α) - 1
        · rw [inside_ok c0.1 c0.2, Res.ok_bind]
          by_cases c1 : 0 ≤ p.2 ∧ p.2 ≤ (n1 : α) - 1
          · exact Or.inl (inside_ok c1.1 c1.2)
          · exact Or.inr (inside_throw c1)
        · rw [inside_throw c0]; exact Or.inr rfl
      have := build_throw (n0 * n1) (check2 n0 n1) (fun p : α × α => corners2 n0 p.1 p.2) ((List.range n).map fun i => (M i 0, M i 1))
        (fun p _ => two p) ⟨(M i 0, M i 1), List.mem_map.mpr ⟨i, List.mem_range.mpr hi, rfl⟩, by
          unfold check2
          by_cases c0 : 0 ≤ M i 0 ∧ M i 0 ≤ (n0 : α) - 1
          · rw [inside_ok c0.1 c0.2, Res.ok_bind]
            refine inside_throw fun c1 => hbad ?_
            intro a m ha
            match a with
            | 0 => simp at ha; subst ha; exact c0
            | 1 => simp at ha; subst ha; exact c1
            | a + 2 => simp at ha
          · rw [inside_throw c0]; rfl⟩
      exact this
    · unfold bilinear
      rw [decide_eq_false hd]; rfl

example : bilinear 1 2 (fun _ _ => 3 / 2 : Nat → Nat → ℚ) 3 2 = .throw :=
  (C580_bilinear_domain 1 2 _ 3 2).2 fun h => by
    have := (h.2 0 (by omega) 1 2 rfl).2
    norm_num at this

end Interp

end Cnine
