import Verif.Props.Interpol3
import Mathlib.Analysis.SpecialFunctions.Trigonometric.Basic

/-!
# C584: the spherical interpolation matrix; C585: the directions of its samples

Over the real numbers, with the functions and constants of `<cmath>`: `M_PI` is π and `M_2_PI` is 2/π.
-/

namespace Cnine

namespace Interp

open CSR InterpSpec

/-- Stores into different rows: each row holds what was stored there. -/
theorem fold_update {β τ : Type} (idx : τ → Nat) (val : τ → β) : ∀ (L : List τ) (X : Nat → β) (t : τ), t ∈ L →
    (∀ s ∈ L, idx s = idx t → val s = val t) → L.foldl (fun X t => Function.update X (idx t) (val t)) X (idx t) = val t := by
  intro L
  induction L using List.reverseRecOn with
  | nil => intro X t h; simp at h
  | append_singleton L s ih =>
    intro X t ht hinj
    rw [List.foldl_append, List.foldl_cons, List.foldl_nil]
    by_cases c : idx s = idx t
    · rw [c, Function.update_self]
      exact hinj s (by simp) c
    · rw [Function.update_of_ne (fun e => c e.symm)]
      refine ih X t ?_ fun s' hs' => hinj s' (by simp [hs'])
      rcases List.mem_append.mp ht with h | h
      · exact h
      · simp at h; subst h; exact absurd rfl c

theorem mem_loop {Nr Ntheta Nphi : Nat} {t : Nat × Nat × Nat} :
    t ∈ sphereLoop Nr Ntheta Nphi ↔ t.1 < Nr ∧ t.2.1 < Nphi ∧ t.2.2 < Ntheta := by
  obtain ⟨i, j, k⟩ := t
  unfold sphereLoop
  simp only [List.mem_flatMap, List.mem_range, List.mem_map, Prod.mk.injEq]
  constructor
  · rintro ⟨a, ha, b, hb, c, hc, rfl, rfl, rfl⟩
    exact ⟨ha, hb, hc⟩
  · rintro ⟨h1, h2, h3⟩
    exact ⟨i, h1, j, h2, k, h3, rfl, rfl, rfl⟩

/-- The row of a sample determines it. -/
theorem row_inj {Ntheta Nphi i j k i' j' k' : Nat} (hj : j < Nphi) (hj' : j' < Nphi) (hk : k < Ntheta) (hk' : k' < Ntheta)
    (h : (i * Ntheta + k) * Nphi + j = (i' * Ntheta + k') * Nphi + j') : i = i' ∧ j = j' ∧ k = k' := by
  have e1 : ((i * Ntheta + k) * Nphi + j) / Nphi = i * Ntheta + k := by
    rw [Nat.add_comm, Nat.add_mul_div_right _ _ (by omega), Nat.div_eq_of_lt hj, Nat.zero_add]
  have e2 : ((i' * Ntheta + k') * Nphi + j') / Nphi = i' * Ntheta + k' := by
    rw [Nat.add_comm, Nat.add_mul_div_right _ _ (by omega), Nat.div_eq_of_lt hj', Nat.zero_add]
  have e3 : i * Ntheta + k = i' * Ntheta + k' := by rw [← e1, ← e2, h]
  have e4 : (i * Ntheta + k) / Ntheta = i := by
    rw [Nat.add_comm, Nat.add_mul_div_right _ _ (by omega), Nat.div_eq_of_lt hk, Nat.zero_add]
  have e5 : (i' * Ntheta + k') / Ntheta = i' := by
    rw [Nat.add_comm, Nat.add_mul_div_right _ _ (by omega), Nat.div_eq_of_lt hk', Nat.zero_add]
  have e6 : i = i' := by rw [← e4, ← e5, e3]
  subst e6
  rw [e3] at h
  omega

/-- The points as the constructor computes them. -/
noncomputable def points (Nr Ntheta Nphi N : Nat) (X0 : Nat → Nat → ℝ) : Nat → Nat → ℝ :=
  spherePoints Real.cos Real.sin Real.pi (2 / Real.pi) Nr Ntheta Nphi N X0

theorem points_at {Nr Ntheta Nphi N i j k : Nat} (X0 : Nat → Nat → ℝ) (hi : i < Nr) (hj : j < Nphi) (hk : k < Ntheta) :
    points Nr Ntheta Nphi N X0 ((i * Ntheta + k) * Nphi + j) =
      spherePoint Real.cos Real.sin Real.pi (2 / Real.pi) Nr Ntheta Nphi N i j k := by
  refine fold_update (fun t : Nat × Nat × Nat => (t.1 * Ntheta + t.2.2) * Nphi + t.2.1)
    (fun t => spherePoint Real.cos Real.sin Real.pi (2 / Real.pi) Nr Ntheta Nphi N t.1 t.2.1 t.2.2) _ X0 (i, j, k)
    (mem_loop.mpr ⟨hi, hj, hk⟩) ?_
  intro s hs h
  obtain ⟨h1, h2, h3⟩ := mem_loop.mp hs
  obtain ⟨e1, e2, e3⟩ := row_inj h2 hj h3 hk h
  dsimp only
  rw [e1, e2, e3]

/-- Every row belongs to a sample. -/
theorem row_of {Nr Ntheta Nphi q : Nat} (h : q < Nr * Ntheta * Nphi) :
    ∃ i j k, i < Nr ∧ j < Nphi ∧ k < Ntheta ∧ q = (i * Ntheta + k) * Nphi + j := by
  have hp : 0 < Nphi := Nat.pos_of_ne_zero fun e => by subst e; simp at h
  have ht : 0 < Ntheta := Nat.pos_of_ne_zero fun e => by subst e; simp at h
  have h1 : q / Nphi < Nr * Ntheta := Nat.div_lt_of_lt_mul (by rw [Nat.mul_comm]; exact h)
  refine ⟨q / Nphi / Ntheta, q % Nphi, q / Nphi % Ntheta, Nat.div_lt_of_lt_mul (by rw [Nat.mul_comm]; exact h1), Nat.mod_lt _ hp, Nat.mod_lt _ ht, ?_⟩
  have e1 := Nat.div_add_mod (q / Nphi) Ntheta
  have e2 := Nat.div_add_mod q Nphi
  rw [Nat.mul_comm (q / Nphi / Ntheta), e1, Nat.mul_comm, e2]

/-- The distance of sample `i` from the centre. -/
noncomputable def radius (Nr N i : Nat) : ℝ := (((N : ℝ) - 1) / 2) / Nr * ((i : ℝ) + 1 / 2)

theorem radius_le {Nr N i : Nat} (hN : 1 ≤ N) (hi : i < Nr) : 0 ≤ radius Nr N i ∧ radius Nr N i ≤ ((N : ℝ) - 1) / 2 := by
  have hx : (0 : ℝ) ≤ ((N : ℝ) - 1) / 2 := by
    have : (1 : ℝ) ≤ N := by exact_mod_cast hN
    linarith
  have hr : (0 : ℝ) < Nr := by exact_mod_cast (show 0 < Nr by omega)
  have hi' : (i : ℝ) + 1 ≤ Nr := by exact_mod_cast hi
  have hi0 : (0 : ℝ) ≤ i := by positivity
  refine ⟨by unfold radius; positivity, ?_⟩
  unfold radius
  rw [div_mul_eq_mul_div, div_le_iff₀ hr]
  exact mul_le_mul_of_nonneg_left (by linarith) hx

theorem within {x r u : ℝ} (hr0 : 0 ≤ r) (hr : r ≤ x) (hu1 : -1 ≤ u) (hu2 : u ≤ 1) : 0 ≤ x + r * u ∧ x + r * u ≤ 2 * x := by
  have h1 : r * u ≤ r * 1 := mul_le_mul_of_nonneg_left hu2 hr0
  have h2 : r * (-1) ≤ r * u := mul_le_mul_of_nonneg_left hu1 hr0
  constructor <;> linarith

theorem prod_le {u v : ℝ} (hu : |u| ≤ 1) (hv : |v| ≤ 1) : -1 ≤ u * v ∧ u * v ≤ 1 := by
  have : |u * v| ≤ 1 := by
    rw [abs_mul]
    exact mul_le_one₀ hu (abs_nonneg _) hv
  exact abs_le.mp this

theorem points_in {Nr Ntheta Nphi N : Nat} (X0 : Nat → Nat → ℝ) (hN : 1 ≤ N) :
    ∀ q < Nr * Ntheta * Nphi, inBox [(N : Int), N, N] (points Nr Ntheta Nphi N X0 q) := by
  intro q hq
  obtain ⟨i, j, k, hi, hj, hk, rfl⟩ := row_of hq
  rw [points_at X0 hi hj hk]
  obtain ⟨r0, r1⟩ := radius_le hN hi
  have e : (((N : Int) : ℝ)) - 1 = 2 * (((N : ℝ) - 1) / 2) := by push_cast; ring
  intro a m ha
  match a with
  | 0 =>
    simp at ha; subst ha
    obtain ⟨p1, p2⟩ := prod_le (Real.abs_cos_le_one (2 / Real.pi * (j : ℝ) / (Nphi : ℝ))) (Real.abs_sin_le_one (Real.pi * (((k : ℝ) + 1 / 2) / Ntheta)))
    have := within r0 r1 p1 p2
    rw [← mul_assoc] at this
    rw [e]
    exact this
  | 1 =>
    simp at ha; subst ha
    obtain ⟨p1, p2⟩ := prod_le (Real.abs_sin_le_one (2 / Real.pi * (j : ℝ) / (Nphi : ℝ))) (Real.abs_sin_le_one (Real.pi * (((k : ℝ) + 1 / 2) / Ntheta)))
    have := within r0 r1 p1 p2
    rw [← mul_assoc] at this
    rw [e]
    exact this
  | 2 =>
    simp at ha; subst ha
    rw [e]
    exact within r0 r1 (Real.neg_one_le_cos _) (Real.cos_le_one _)
  | a + 3 => simp at ha

/-- **C584**.  For a grid with at least one point the constructor succeeds whatever the memory of its tensor of points held
before; its entries interpolate at points `X`, one for each of the `Nr*Ntheta*Nphi` samples, and the point of sample
`(i,j,k)` is at the distance `(N-1)/2/Nr*(i+1/2)` from the centre of the grid. -/
theorem C584_spherical (P : Pun ℝ) (Nr Ntheta Nphi N : Nat) (hN : 1 ≤ N) (X0 : Nat → Nat → ℝ) :
    ∃ c es, ∃ X : Nat → Nat → ℝ, spherical Real.cos Real.sin Real.pi (2 / Real.pi) Nr Ntheta Nphi N X0 = .ok c ∧
      c.n = (Nr * Ntheta * Nphi : Nat) ∧ c.entries P = .ok es ∧ Interpolates3 es (Nr * Ntheta * Nphi) X N N N ∧
      ∀ i j k, i < Nr → j < Nphi → k < Ntheta →
        (X ((i * Ntheta + k) * Nphi + j) 0 - ((N : ℝ) - 1) / 2) ^ 2 + (X ((i * Ntheta + k) * Nphi + j) 1 - ((N : ℝ) - 1) / 2) ^ 2 +
          (X ((i * Ntheta + k) * Nphi + j) 2 - ((N : ℝ) - 1) / 2) ^ 2 = (((N : ℝ) - 1) / 2 / Nr * ((i : ℝ) + 1 / 2)) ^ 2 := by
  obtain ⟨c, es, h1, h2, h3, h4⟩ := C581_trilinear_partial P (Nr * Ntheta * Nphi) N (points Nr Ntheta Nphi N X0) (points_in X0 hN)
  refine ⟨c, es, points Nr Ntheta Nphi N X0, h1, h2, h3, h4, ?_⟩
  intro i j k hi hj hk
  rw [points_at X0 hi hj hk]
  simp only [spherePoint, if_pos, if_true, one_ne_zero, if_false, OfNat.ofNat_ne_zero, OfNat.ofNat_ne_one]
  have s1 := Real.sin_sq_add_cos_sq (2 / Real.pi * (j : ℝ) / (Nphi : ℝ))
  have s2 := Real.sin_sq_add_cos_sq (Real.pi * (((k : ℝ) + 1 / 2) / Ntheta))
  generalize Real.sin (2 / Real.pi * (j : ℝ) / (Nphi : ℝ)) = sp at *
  generalize Real.cos (2 / Real.pi * (j : ℝ) / (Nphi : ℝ)) = cp at *
  generalize Real.sin (Real.pi * (((k : ℝ) + 1 / 2) / Ntheta)) = st at *
  generalize Real.cos (Real.pi * (((k : ℝ) + 1 / 2) / Ntheta)) = ct at *
  generalize ((N : ℝ) - 1) / 2 / Nr * ((i : ℝ) + 1 / 2) = r
  have : (r * cp * st) ^ 2 + (r * sp * st) ^ 2 + (r * ct) ^ 2 = r ^ 2 := by
    have e1 : (r * cp * st) ^ 2 + (r * sp * st) ^ 2 + (r * ct) ^ 2 = r ^ 2 * ((sp ^ 2 + cp ^ 2) * st ^ 2 + ct ^ 2) := by ring
    rw [e1, s1, one_mul, s2, mul_one]
  rw [← this]
  ring

/-- Two shells, three rings and four directions on a 5×5×5 grid. -/
example : ∃ c, spherical Real.cos Real.sin Real.pi (2 / Real.pi) 2 3 4 5 (fun _ _ => 7) = .ok c := by
  obtain ⟨c, _, _, h, _⟩ := C584_spherical ⟨fun _ => 0, fun _ => 0, fun i => i⟩ 2 3 4 5 (by omega) (fun _ _ => 7)
  exact ⟨c, h⟩

/-- **C585** (partial: the polar angle).  The point of sample `(i,j,k)` has the polar angle `π(k+1/2)/Ntheta`: its third
coordinate is the radius times its cosine, seen from the centre.
Missing: the azimuth `2πj/Nphi`, which it does not have (`C585_directions_fails`). -/
theorem C585_directions_partial (Nr Ntheta Nphi N : Nat) (X0 : Nat → Nat → ℝ) (i j k : Nat) (hi : i < Nr) (hj : j < Nphi) (hk : k < Ntheta) :
    points Nr Ntheta Nphi N X0 ((i * Ntheta + k) * Nphi + j) 2 =
      ((N : ℝ) - 1) / 2 + ((N : ℝ) - 1) / 2 / Nr * ((i : ℝ) + 1 / 2) * Real.cos (Real.pi * ((k + 1 / 2) / Ntheta)) := by
  rw [points_at X0 hi hj hk]
  rfl

example : points 1 1 2 3 (fun _ _ => 0) ((0 * 1 + 0) * 2 + 1) 2 = 1 := by
  rw [C585_directions_partial 1 1 2 3 _ 0 1 0 (by omega) (by omega) (by omega)]
  have : Real.pi * (((0 : ℕ) + 1 / 2) / (1 : ℕ)) = Real.pi / 2 := by push_cast; ring
  rw [this, Real.cos_pi_div_two]
  norm_num

/-- **C585**: `M_2_PI` is 2/π and not 2π.  With two directions the second one should be opposite to the first, so that its
point has the same second coordinate as the centre; it does not. -/
theorem C585_directions_fails : ∃ (Nr Ntheta Nphi N i j k : Nat), i < Nr ∧ j < Nphi ∧ k < Ntheta ∧ ∀ X0 : Nat → Nat → ℝ,
    points Nr Ntheta Nphi N X0 ((i * Ntheta + k) * Nphi + j) 1 ≠
      ((N : ℝ) - 1) / 2 + ((N : ℝ) - 1) / 2 / Nr * ((i : ℝ) + 1 / 2) * Real.sin (2 * Real.pi * j / Nphi) *
        Real.sin (Real.pi * ((k + 1 / 2) / Ntheta)) := by
  refine ⟨1, 1, 2, 3, 0, 1, 0, by omega, by omega, by omega, fun X0 h => ?_⟩
  rw [points_at X0 (by omega) (by omega) (by omega)] at h
  have e1 : 2 * Real.pi * ((1 : ℕ) : ℝ) / ((2 : ℕ) : ℝ) = Real.pi := by push_cast; ring
  have e2 : Real.pi * ((((0 : ℕ) : ℝ) + 1 / 2) / ((1 : ℕ) : ℝ)) = Real.pi / 2 := by push_cast; ring
  have e3 : 2 / Real.pi * ((1 : ℕ) : ℝ) / ((2 : ℕ) : ℝ) = 1 / Real.pi := by push_cast; ring
  simp only [spherePoint, one_ne_zero, if_false, if_true] at h
  rw [e1, e2, e3, Real.sin_pi, Real.sin_pi_div_two] at h
  have hpos : 0 < Real.sin (1 / Real.pi) := by
    refine Real.sin_pos_of_pos_of_lt_pi (by have := Real.pi_pos; positivity) ?_
    have h3 := Real.two_le_pi
    have : 1 / Real.pi < 1 := by rw [div_lt_one (by linarith)]; linarith
    linarith
  norm_num at h
  rw [one_div, h] at hpos
  exact lt_irrefl _ hpos

end Interp

end Cnine
