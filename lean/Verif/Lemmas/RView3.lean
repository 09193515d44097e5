import Verif.Model.RView3
import Verif.Props.RView3

/-! Loops over the cells of strided views with three axes. -/

namespace Cnine

variable {α : Type _}

/-- A loop whose rounds work in regions of their own. -/
theorem loop_regions (n : Nat) (step : Nat → Buf α → Res (Buf α)) (W : Nat → Nat → Prop) (P : Nat → Buf α → Prop) (m0 : Buf α)
    (hdisj : ∀ i, i < n → ∀ j, j < n → i ≠ j → ∀ c, W i c → ¬ W j c)
    (hloc : ∀ i, i < n → ∀ m m' : Buf α, (∀ c, W i c → m' c = m c) → P i m → P i m')
    (hstep : ∀ i, i < n → ∀ m : Buf α, (∀ c, (∀ j, j < n → j ≠ i → ¬ W j c) → m c = m0 c) →
      ∃ m', step i m = .ok m' ∧ P i m' ∧ ∀ c, ¬ W i c → m' c = m c) :
    ∃ m', loop n m0 step = .ok m' ∧ (∀ i, i < n → P i m') ∧ ∀ c, (∀ i, i < n → ¬ W i c) → m' c = m0 c := by
  suffices h : ∀ k, k ≤ n → ∃ m', loop k m0 step = .ok m' ∧ (∀ i, i < k → P i m') ∧
      ∀ c, (∀ i, i < k → ¬ W i c) → m' c = m0 c from h n (Nat.le_refl n)
  intro k
  induction k with
  | zero => exact fun _ => ⟨m0, rfl, fun i hi => absurd hi (Nat.not_lt_zero i), fun _ _ => rfl⟩
  | succ k ih =>
    intro hk
    obtain ⟨m1, h1, h2, h3⟩ := ih (by omega)
    obtain ⟨m', g1, g2, g3⟩ := hstep k (by omega) m1 fun c hc => h3 c fun i hi => hc i (by omega) (by omega)
    refine ⟨m', ?_, ?_, ?_⟩
    · unfold loop at h1 ⊢
      rw [List.range_succ, Res.forM_append, h1, Res.ok_bind, Res.forM_cons, g1]
      rfl
    · intro i hi
      by_cases e : i = k
      · exact e ▸ g2
      · exact hloc i (by omega) m1 m' (fun c hc => g3 c (hdisj i (by omega) k (by omega) e c hc)) (h2 i (by omega))
    · intro c hc
      rw [g3 c (hc k (by omega)), h3 c fun i hi => hc i (by omega)]

/-- Index idx3 in row order. -/
def idx3 (n0 n1 n2 : Nat) : List (Nat × Nat × Nat) := List.range n0 ×ˢ pairs n1 n2

theorem mem_idx3 {n0 n1 n2 : Nat} {p : Nat × Nat × Nat} : p ∈ idx3 n0 n1 n2 ↔ p.1 < n0 ∧ p.2.1 < n1 ∧ p.2.2 < n2 := by
  obtain ⟨a, b⟩ := p
  rw [idx3, List.mem_product, mem_pairs]
  simp

theorem nodup_idx3 (n0 n1 n2 : Nat) : (idx3 n0 n1 n2).Nodup := List.nodup_range.product (nodup_pairs _ _)

theorem loop3_eq {σ} (n0 n1 n2 : Nat) (s : σ) (f : Nat → Nat → Nat → σ → Res σ) :
    loop n0 s (fun i s => loop n1 s fun j s => loop n2 s fun k s => f i j k s) =
      Res.forM (idx3 n0 n1 n2) s (fun s p => f p.1 p.2.1 p.2.2 s) := by
  simp only [loop2_eq]
  unfold loop idx3
  show _ = Res.forM (List.product _ _) _ _
  unfold List.product
  rw [forM_flatMap]
  simp only [forM_map]

/-- A nest of three loops each round of which writes one cell of its own. -/
theorem loop3_cells (n0 n1 n2 : Nat) (dst : Nat → Nat → Nat → Nat) (new : Nat → Nat → Nat → α)
    (step : Nat → Nat → Nat → Buf α → Res (Buf α)) (m0 : Buf α)
    (hinj : ∀ i, i < n0 → ∀ j, j < n1 → ∀ k, k < n2 → ∀ i', i' < n0 → ∀ j', j' < n1 → ∀ k', k' < n2 →
      dst i j k = dst i' j' k' → i = i' ∧ j = j' ∧ k = k')
    (halloc : ∀ i, i < n0 → ∀ j, j < n1 → ∀ k, k < n2 → (m0 (dst i j k)).isSome)
    (hstep : ∀ i, i < n0 → ∀ j, j < n1 → ∀ k, k < n2 → ∀ m : Buf α,
      (∀ c, (∀ i', i' < n0 → ∀ j', j' < n1 → ∀ k', k' < n2 → ¬ (i' = i ∧ j' = j ∧ k' = k) → c ≠ dst i' j' k') → m c = m0 c) →
      step i j k m = m.write (dst i j k) (new i j k)) :
    ∃ m', loop n0 m0 (fun i m => loop n1 m fun j m => loop n2 m fun k m => step i j k m) = .ok m' ∧
      (∀ i, i < n0 → ∀ j, j < n1 → ∀ k, k < n2 → m' (dst i j k) = some (new i j k)) ∧
      ∀ c, (∀ i, i < n0 → ∀ j, j < n1 → ∀ k, k < n2 → c ≠ dst i j k) → m' c = m0 c := by
  rw [loop3_eq]
  obtain ⟨m', h1, h2, h3⟩ := cells_run (idx3 n0 n1 n2) (fun p => dst p.1 p.2.1 p.2.2) (fun p => new p.1 p.2.1 p.2.2)
    (fun m p => step p.1 p.2.1 p.2.2 m) m0 (nodup_idx3 _ _ _)
    (by
      intro p hp q hq e
      rw [mem_idx3] at hp hq
      obtain ⟨e1, e2, e3⟩ := hinj _ hp.1 _ hp.2.1 _ hp.2.2 _ hq.1 _ hq.2.1 _ hq.2.2 e
      exact Prod.ext e1 (Prod.ext e2 e3))
    (fun p hp => halloc _ (mem_idx3.1 hp).1 _ (mem_idx3.1 hp).2.1 _ (mem_idx3.1 hp).2.2)
    (fun p hp m hm => hstep _ (mem_idx3.1 hp).1 _ (mem_idx3.1 hp).2.1 _ (mem_idx3.1 hp).2.2 m fun c hc =>
      hm c fun q hq hqp => hc _ (mem_idx3.1 hq).1 _ (mem_idx3.1 hq).2.1 _ (mem_idx3.1 hq).2.2
        fun e => hqp (Prod.ext e.1 (Prod.ext e.2.1 e.2.2)))
  exact ⟨m', h1, fun i hi j hj k hk => h2 (i, j, k) (mem_idx3.2 ⟨hi, hj, hk⟩),
    fun c hc => h3 c fun p hp => hc _ (mem_idx3.1 hp).1 _ (mem_idx3.1 hp).2.1 _ (mem_idx3.1 hp).2.2⟩

end Cnine
