import Verif.Lemmas.GpuC
import Verif.Props.CViewProd

/-!
# Complex products on the GPU
-/

namespace Cnine

variable {α : Type}

namespace GpuC

open Gpu

/-- The sizes for which one of the three launches of `BasicCproduct_4_cu` is made and allowed by the GPU. -/
def Fits4 (n0 n1 n2 n3 : Nat) : Prop :=
  n0 ≤ 2147483647 ∧ (n1 * n2 * n3 ≤ 1024 ∧ n3 ≤ 64 ∨ 1024 < n1 * n2 * n3 ∧ n2 * n3 ≤ 1024 ∧ n1 ≤ 65535 ∨ 1024 < n1 * n2 * n3 ∧ 1024 < n2 * n3 ∧ n3 ≤ 1024 ∧ n1 ≤ 65535 ∧ n2 ≤ 65535)

/-- The entries of a tensor with four axes. -/
def box4 (n0 n1 n2 n3 : Nat) (q : Nat × Nat × Nat × Nat) : Prop := q.1 < n0 ∧ q.2.1 < n1 ∧ q.2.2.1 < n2 ∧ q.2.2.2 < n3

theorem own4 {r : CV4} (hs : r.Sep) : Own2 (box4 r.n0 r.n1 r.n2 r.n3) (fun q => r.arr + r.off q.1 q.2.1 q.2.2.1 q.2.2.2) (fun q => r.arrc + r.off q.1 q.2.1 q.2.2.1 q.2.2.2) := by
  refine ⟨?_, ?_, ?_⟩ <;> rintro ⟨a, b, c, d⟩ ⟨a', b', c', d'⟩ ⟨h1, h2, h3, h4⟩ ⟨h1', h2', h3', h4'⟩
  · intro e
    obtain ⟨rfl, rfl, rfl, rfl⟩ := (hs _ h1 _ h2 _ h3 _ h4 _ h1' _ h2' _ h3' _ h4').1 (Nat.add_left_cancel e)
    rfl
  · intro e
    obtain ⟨rfl, rfl, rfl, rfl⟩ := (hs _ h1 _ h2 _ h3 _ h4 _ h1' _ h2' _ h3' _ h4').1 (Nat.add_left_cancel e)
    rfl
  · exact (hs _ h1 _ h2 _ h3 _ h4 _ h1' _ h2' _ h3' _ h4').2

theorem own2 {r : CV2} (hs : r.Sep) : Own2 (box2 r.n0 r.n1) (fun q => r.arr + r.off q.1 q.2) (fun q => r.arrc + r.off q.1 q.2) := by
  refine ⟨?_, ?_, ?_⟩ <;> rintro ⟨a, b⟩ ⟨a', b'⟩ ⟨h1, h2⟩ ⟨h1', h2'⟩
  · intro e
    obtain ⟨rfl, rfl⟩ := (hs _ h1 _ h2 _ h1' _ h2').1 (Nat.add_left_cancel e)
    rfl
  · intro e
    obtain ⟨rfl, rfl⟩ := (hs _ h1 _ h2 _ h1' _ h2').1 (Nat.add_left_cancel e)
    rfl
  · exact (hs _ h1 _ h2 _ h1' _ h2').2

theorem has4 {r : CV4} {m m' : Buf α} {V : Nat → Nat → Nat → Nat → Cx α} (h : Upd2 m m' (box4 r.n0 r.n1 r.n2 r.n3) (fun q => r.arr + r.off q.1 q.2.1 q.2.2.1 q.2.2.2)
    (fun q => r.arrc + r.off q.1 q.2.1 q.2.2.1 q.2.2.2) fun q => V q.1 q.2.1 q.2.2.1 q.2.2.2) : r.Has m' V ∧ ∀ c, ¬ r.Cov c → m' c = m c :=
  ⟨fun i hi j hj k hk l hl => h.1 (i, j, k, l) ⟨hi, hj, hk, hl⟩, fun c hc => h.2 c fun q hq => CV4.not_cov.1 hc _ hq.1 _ hq.2.1 _ hq.2.2.1 _ hq.2.2.2⟩

theorem has2 {r : CV2} {m m' : Buf α} {V : Nat → Nat → Cx α} (h : Upd2 m m' (box2 r.n0 r.n1) (fun q => r.arr + r.off q.1 q.2) (fun q => r.arrc + r.off q.1 q.2) fun q => V q.1 q.2) :
    r.Has m' V ∧ ∀ c, ¬ r.Cov c → m' c = m c :=
  ⟨fun i hi j hj => h.1 (i, j) ⟨hi, hj⟩, fun c hc => h.2 c fun q hq => CV2.not_cov.1 hc _ hq.1 _ hq.2⟩

/-! ## C542: the product into four axes -/

/-- The products are added, whatever the order of the threads, if the launch is allowed.  `C542_expand_fails`: there are tensors for which it is not.  Too large tensors (`Fits4`) are
left as they are, too. -/
theorem C542_expand_partial [Ring α] (r : CV4) (x y : CV3) (hs : r.Sep) (hx : ∀ c, r.Cov c → ¬ x.Cov c) (hy : ∀ c, r.Cov c → ¬ y.Cov c)
    (m : Buf α) (R : Nat → Nat → Nat → Nat → Cx α) (X Y : Nat → Nat → Nat → Cx α) (hR : r.Has m R) (hX : x.Has m X) (hY : y.Has m Y) (hf : Fits4 r.n0 r.n1 r.n2 r.n3) :
    if x.n0 = r.n0 ∧ x.n1 = r.n1 ∧ x.n2 = r.n3 ∧ y.n0 = x.n1 ∧ y.n1 = r.n2 ∧ y.n2 = x.n2 then
      ∃ ls, addExpand2 r x y = .ok ls ∧ Ends ls m fun m' => r.Has m' (fun a b d c => R a b d c + X a b c * Y b d c) ∧ ∀ c, ¬ r.Cov c → m' c = m c
    else (addExpand2 r x y : Res (List (Launch α))) = .throw := by
  split
  case isTrue h =>
    obtain ⟨h0, h1, h2, h3, h4, h5⟩ := h
    have ex : ∀ a b d c, a * x.s0 + b * x.s1 + d * 0 + c * x.s2 = x.off a b c := fun a b d c => by simp only [CV3.off]; ring
    have ey : ∀ a b d c, a * 0 + b * y.s0 + d * y.s1 + c * y.s2 = y.off b d c := fun a b d c => by simp only [CV3.off]; ring
    have er : ∀ a b d c, a * r.s0 + b * r.s1 + d * r.s2 + c * r.s3 = r.off a b d c := fun a b d c => by simp only [CV4.off]; ring
    have pr : ∀ q : Nat × Nat × Nat × Nat, box4 r.n0 r.n1 r.n2 r.n3 q → Pair m (prod4K ⟨x.arr, x.arrc, 0, 0, 0, 0, x.s0, x.s1, 0, x.s2⟩ ⟨y.arr, y.arrc, 0, 0, 0, 0, 0, y.s0, y.s1, y.s2⟩ r
        q.1 q.2.1 q.2.2.1 q.2.2.2) (r.arr + r.off q.1 q.2.1 q.2.2.1 q.2.2.2) (r.arrc + r.off q.1 q.2.1 q.2.2.1 q.2.2.2)
        (R q.1 q.2.1 q.2.2.1 q.2.2.2 + X q.1 q.2.1 q.2.2.2 * Y q.2.1 q.2.2.1 q.2.2.2)
        (fun p => p = x.arr + x.off q.1 q.2.1 q.2.2.2 ∨ p = x.arrc + x.off q.1 q.2.1 q.2.2.2 ∨ p = y.arr + y.off q.2.1 q.2.2.1 q.2.2.2 ∨ p = y.arrc + y.off q.2.1 q.2.2.1 q.2.2.2) := by
      rintro ⟨a, b, d, c⟩ ⟨ha, hb, hd, hc⟩
      dsimp only at ha hb hd hc ⊢
      have hr := hR a ha b hb d hd c hc
      have gx := hX a (h0 ▸ ha) b (h1 ▸ hb) c (h2 ▸ hc)
      have gy := hY b (h3 ▸ h1 ▸ hb) d (h4 ▸ hd) c (h5 ▸ h2 ▸ hc)
      simp only [prod4K, ex, ey, er]
      exact pair_prod (fun xr xi yr yi => xr * yr - xi * yi) (fun xr xi yr yi => xr * yi + xi * yr) (hs _ ha _ hb _ hd _ hc _ ha _ hb _ hd _ hc).2 hr.1 hr.2 gx.1 gx.2 gy.1 gy.2
    have sep : ∀ i j, box4 r.n0 r.n1 r.n2 r.n3 i → box4 r.n0 r.n1 r.n2 r.n3 j → i ≠ j →
        ¬ (r.arr + r.off i.1 i.2.1 i.2.2.1 i.2.2.2 = x.arr + x.off j.1 j.2.1 j.2.2.2 ∨ r.arr + r.off i.1 i.2.1 i.2.2.1 i.2.2.2 = x.arrc + x.off j.1 j.2.1 j.2.2.2 ∨
          r.arr + r.off i.1 i.2.1 i.2.2.1 i.2.2.2 = y.arr + y.off j.2.1 j.2.2.1 j.2.2.2 ∨ r.arr + r.off i.1 i.2.1 i.2.2.1 i.2.2.2 = y.arrc + y.off j.2.1 j.2.2.1 j.2.2.2) ∧
        ¬ (r.arrc + r.off i.1 i.2.1 i.2.2.1 i.2.2.2 = x.arr + x.off j.1 j.2.1 j.2.2.2 ∨ r.arrc + r.off i.1 i.2.1 i.2.2.1 i.2.2.2 = x.arrc + x.off j.1 j.2.1 j.2.2.2 ∨
          r.arrc + r.off i.1 i.2.1 i.2.2.1 i.2.2.2 = y.arr + y.off j.2.1 j.2.2.1 j.2.2.2 ∨ r.arrc + r.off i.1 i.2.1 i.2.2.1 i.2.2.2 = y.arrc + y.off j.2.1 j.2.2.1 j.2.2.2) := by
      rintro ⟨a, b, d, c⟩ ⟨a', b', d', c'⟩ ⟨ha, hb, hd, hc⟩ ⟨ha', hb', hd', hc'⟩ -
      dsimp only at ha hb hd hc ha' hb' hd' hc' ⊢
      have c1 : r.Cov (r.arr + r.off a b d c) := ⟨a, ha, b, hb, d, hd, c, hc, .inl rfl⟩
      have c2 : r.Cov (r.arrc + r.off a b d c) := ⟨a, ha, b, hb, d, hd, c, hc, .inr rfl⟩
      have kx : ∀ p, r.Cov p → ¬ (p = x.arr + x.off a' b' c' ∨ p = x.arrc + x.off a' b' c' ∨ p = y.arr + y.off b' d' c' ∨ p = y.arrc + y.off b' d' c') := by
        rintro p hp (e | e | e | e)
        · exact hx p hp ⟨a', h0 ▸ ha', b', h1 ▸ hb', c', h2 ▸ hc', .inl e⟩
        · exact hx p hp ⟨a', h0 ▸ ha', b', h1 ▸ hb', c', h2 ▸ hc', .inr e⟩
        · exact hy p hp ⟨b', h3 ▸ h1 ▸ hb', d', h4 ▸ hd', c', h5 ▸ h2 ▸ hc', .inl e⟩
        · exact hy p hp ⟨b', h3 ▸ h1 ▸ hb', d', h4 ▸ hd', c', h5 ▸ h2 ▸ hc', .inr e⟩
      exact ⟨kx _ c1, kx _ c2⟩
    refine ⟨_, by simp only [addExpand2, h0, h1, h2, h3, h4, h5, decide_true, Res.assrt_true, Res.ok_bind]; rfl, ?_⟩
    obtain ⟨f0, hf⟩ := hf
    rw [prod4L]
    rcases hf with ⟨f1, f2⟩ | ⟨f1, f2, f3⟩ | ⟨f1, f2, f3, f4, f5⟩
    · rw [if_pos f1]
      refine (Ends.pairs' (S := fun q p => p = x.arr + x.off q.1 q.2.1 q.2.2.2 ∨ p = x.arrc + x.off q.1 q.2.1 q.2.2.2 ∨ p = y.arr + y.off q.2.1 q.2.2.1 q.2.2.2 ∨ p = y.arrc + y.off q.2.1 q.2.2.1 q.2.2.2)
        (idx := fun q => (q.1.x, q.2.x, q.2.y, q.2.z)) (covers_box _ _ _ (box4 r.n0 r.n1 r.n2 r.n3) _ (fun i => (⟨i.1, 0, 0⟩, ⟨i.2.1, i.2.2.1, i.2.2.2⟩)) ?_ ?_ ?_ ?_ ?_ ?_ ?_ ?_)
        (own4 hs) ?_ sep).imp fun m' h => has4 h
      · rintro ⟨a, b, d, c⟩ ⟨ha, hb, hd, hc⟩; dsimp only at *; omega
      · rintro ⟨a, b, d, c⟩ _; rfl
      · intro bx by' bz tx ty tz a1 a2 a3 a4 a5 a6; dsimp only [box4] at *; omega
      · exact f0
      · exact Nat.le_of_ble_eq_true rfl
      · exact Nat.le_of_ble_eq_true rfl
      · exact f1
      · exact f2
      · rintro ⟨⟨bx, by', bz⟩, ⟨tx, ty, tz⟩⟩ hq
        have := mem_ids'.1 hq
        exact pr (bx, tx, ty, tz) ⟨this.1.1, this.2.1, this.2.2.1, this.2.2.2⟩
    · rw [if_neg (by omega), if_pos f2]
      refine (Ends.pairs' (S := fun q p => p = x.arr + x.off q.1 q.2.1 q.2.2.2 ∨ p = x.arrc + x.off q.1 q.2.1 q.2.2.2 ∨ p = y.arr + y.off q.2.1 q.2.2.1 q.2.2.2 ∨ p = y.arrc + y.off q.2.1 q.2.2.1 q.2.2.2)
        (idx := fun q => (q.1.x, q.1.y, q.2.x, q.2.y)) (covers_box _ _ _ (box4 r.n0 r.n1 r.n2 r.n3) _ (fun i => (⟨i.1, i.2.1, 0⟩, ⟨i.2.2.1, i.2.2.2, 0⟩)) ?_ ?_ ?_ ?_ ?_ ?_ ?_ ?_)
        (own4 hs) ?_ sep).imp fun m' h => has4 h
      · rintro ⟨a, b, d, c⟩ ⟨ha, hb, hd, hc⟩; dsimp only at *; omega
      · rintro ⟨a, b, d, c⟩ _; rfl
      · intro bx by' bz tx ty tz a1 a2 a3 a4 a5 a6; dsimp only [box4] at *; omega
      · exact f0
      · exact f3
      · exact Nat.le_of_ble_eq_true rfl
      · dsimp only; omega
      · exact Nat.le_of_ble_eq_true rfl
      · rintro ⟨⟨bx, by', bz⟩, ⟨tx, ty, tz⟩⟩ hq
        have := mem_ids'.1 hq
        exact pr (bx, by', tx, ty) ⟨this.1.1, this.1.2.1, this.2.1, this.2.2.1⟩
    · rw [if_neg (by omega), if_neg (by omega), if_pos f3]
      refine (Ends.pairs' (S := fun q p => p = x.arr + x.off q.1 q.2.1 q.2.2.2 ∨ p = x.arrc + x.off q.1 q.2.1 q.2.2.2 ∨ p = y.arr + y.off q.2.1 q.2.2.1 q.2.2.2 ∨ p = y.arrc + y.off q.2.1 q.2.2.1 q.2.2.2)
        (idx := fun q => (q.1.x, q.1.y, q.1.z, q.2.x)) (covers_box _ _ _ (box4 r.n0 r.n1 r.n2 r.n3) _ (fun i => (⟨i.1, i.2.1, i.2.2.1⟩, ⟨i.2.2.2, 0, 0⟩)) ?_ ?_ ?_ ?_ ?_ ?_ ?_ ?_)
        (own4 hs) ?_ sep).imp fun m' h => has4 h
      · rintro ⟨a, b, d, c⟩ ⟨ha, hb, hd, hc⟩; dsimp only at *; omega
      · rintro ⟨a, b, d, c⟩ _; rfl
      · intro bx by' bz tx ty tz a1 a2 a3 a4 a5 a6; dsimp only [box4] at *; omega
      · exact f0
      · exact f4
      · exact f5
      · dsimp only; omega
      · exact Nat.le_of_ble_eq_true rfl
      · rintro ⟨⟨bx, by', bz⟩, ⟨tx, ty, tz⟩⟩ hq
        have := mem_ids'.1 hq
        exact pr (bx, by', bz, tx) ⟨this.1.1, this.1.2.1, this.1.2.2, this.2.1⟩
  case isFalse h =>
    simp only [addExpand2]
    by_cases h0 : x.n0 = r.n0
    · by_cases h1 : x.n1 = r.n1
      · by_cases h2 : x.n2 = r.n3
        · by_cases h3 : y.n0 = x.n1
          · by_cases h4 : y.n1 = r.n2
            · have h5 : y.n2 ≠ x.n2 := fun e => h ⟨h0, h1, h2, h3, h4, e⟩
              rw [h2] at h5
              rw [h1] at h3
              simp [h0, h1, h2, h3, h4, h5]
            · rw [h1] at h3
              simp [h0, h1, h2, h3, h4]
          · rw [h1] at h3
            simp [h0, h1, h2, h3]
        · simp [h0, h1, h2]
      · simp [h0, h1]
    · simp [h0]

/-- A target of sizes 1, 1, 1 and 100: the block of 1·1·100 threads is not allowed (at most 64 in the third direction), so nothing is added, whatever the memory. -/
theorem C542_expand_fails [Ring α] (m : Buf α) : ∃ ls, addExpand2 (⟨0, 1, 1, 1, 1, 100, 200, 200, 200, 2⟩ : CV4) ⟨200, 201, 1, 1, 100, 200, 200, 2⟩ ⟨400, 401, 1, 1, 100, 200, 200, 2⟩ = .ok ls ∧
    Ends ls m fun m' => m' = m := by
  exact ⟨_, rfl, Ends.skip rfl (Ends.nil rfl)⟩

/-- The same call on the CPU and on the GPU: the target holds 5, the product is 6; the CPU leaves 6 (it stores), the GPU 11 (it adds). -/
theorem C542_devices_fails : (∃ m', (⟨0, 1, 1, 1, 1, 1, 2, 2, 2, 2⟩ : CV4).addExpand2 ⟨2, 3, 1, 1, 1, 2, 2, 2⟩ ⟨4, 5, 1, 1, 1, 2, 2, 2⟩ (Buf.ofList ([5, 0, 2, 0, 3, 0] : List Int)) = .ok m' ∧ m' 0 = some 6) ∧
    ∃ ls, addExpand2 (⟨0, 1, 1, 1, 1, 1, 2, 2, 2, 2⟩ : CV4) ⟨2, 3, 1, 1, 1, 2, 2, 2⟩ ⟨4, 5, 1, 1, 1, 2, 2, 2⟩ = .ok ls ∧
      Ends ls (Buf.ofList ([5, 0, 2, 0, 3, 0] : List Int)) fun m' => m' 0 = some 11 := by
  refine ⟨⟨_, rfl, rfl⟩, ?_⟩
  have h := C542_expand_partial (α := Int) ⟨0, 1, 1, 1, 1, 1, 2, 2, 2, 2⟩ ⟨2, 3, 1, 1, 1, 2, 2, 2⟩ ⟨4, 5, 1, 1, 1, 2, 2, 2⟩ (by decide)
    (by rintro c ⟨i, hi, j, hj, k, hk, l, hl, e⟩ ⟨i', hi', j', hj', k', hk', f⟩; simp only [CV3.off, CV4.off] at *; omega)
    (by rintro c ⟨i, hi, j, hj, k, hk, l, hl, e⟩ ⟨i', hi', j', hj', k', hk', f⟩; simp only [CV3.off, CV4.off] at *; omega)
    (Buf.ofList ([5, 0, 2, 0, 3, 0] : List Int)) (fun _ _ _ _ => ⟨5, 0⟩) (fun _ _ _ => ⟨2, 0⟩) (fun _ _ _ => ⟨3, 0⟩) (by decide) (by decide) (by decide) (by unfold Fits4; decide)
  rw [if_pos ⟨rfl, rfl, rfl, rfl, rfl, rfl⟩] at h
  obtain ⟨ls, e, h⟩ := h
  exact ⟨ls, e, h.imp fun m' hm => (hm.1 0 (by decide) 0 (by decide) 0 (by decide) 0 (by decide)).1⟩

/-- A 1×2×3 argument, a 2×2×3 argument and a 1×2×2×3 target meet the conditions. -/
example : (⟨0, 1, 1, 2, 2, 3, 24, 12, 6, 2⟩ : CV4).Sep ∧ Fits4 1 2 2 3 ∧ Fits4 100 70 30 10 ∧ Fits4 5 6 7 1000 := by
  refine ⟨?_, by unfold Fits4; decide, by unfold Fits4; decide, by unfold Fits4; decide⟩
  intro i hi j hj k hk l hl a ha b hb c hc d hd
  simp only [CV4.off] at *
  omega

/-! ## C543: the contraction of the middle axis -/

/-- The sums of products are added, whatever the order of the threads, for at most 1024 columns; a matrix with more columns (and more than 1024 entries) is left as it is. -/
theorem C543_contract_partial [Ring α] (x y : CV3) (r : CV2) (hs : r.Sep) (hx : ∀ c, r.Cov c → ¬ x.Cov c) (hy : ∀ c, r.Cov c → ¬ y.Cov c)
    (m : Buf α) (R : Nat → Nat → Cx α) (X Y : Nat → Nat → Nat → Cx α) (hR : r.Has m R) (hX : x.Has m X) (hY : y.Has m Y) (h0' : r.n0 ≤ 2147483647) :
    if r.n0 = x.n0 ∧ r.n1 = x.n2 ∧ y.n0 = x.n0 ∧ y.n1 = x.n1 ∧ y.n2 = x.n2 then
      ∃ ls, addContractTo x r y = .ok ls ∧ Ends ls m fun m' => if r.n1 ≤ 1024 ∨ r.n0 * r.n1 ≤ 1024 then
        r.Has m' (fun a b => R a b + ((List.range x.n1).map fun i => X a i b * Y a i b).sum) ∧ ∀ c, ¬ r.Cov c → m' c = m c else m' = m
    else (addContractTo x r y : Res (List (Launch α))) = .throw := by
  split
  case isTrue h =>
    obtain ⟨h0, h1, h2, h3, h4⟩ := h
    have ex : ∀ a b i, a * x.s0 + b * x.s2 + i * x.s1 = x.off a i b := fun a b i => by simp only [CV3.off]; ring
    have ey : ∀ a b i, a * y.s0 + b * y.s2 + i * y.s1 = y.off a i b := fun a b i => by simp only [CV3.off]; ring
    have er : ∀ a b, a * r.s0 + b * r.s1 = r.off a b := fun a b => by simp only [CV2.off]; ring
    have pr : ∀ q : Nat × Nat, box2 r.n0 r.n1 q → Pair m (prod21K ⟨x.arr, x.arrc, 0, 0, 0, x.s0, x.s2, x.s1⟩ ⟨y.arr, y.arrc, 0, 0, 0, y.s0, y.s2, y.s1⟩ r x.n1 q.1 q.2)
        (r.arr + r.off q.1 q.2) (r.arrc + r.off q.1 q.2) (R q.1 q.2 + ((List.range x.n1).map fun i => X q.1 i q.2 * Y q.1 i q.2).sum)
        (fun p => ∃ i, i < x.n1 ∧ (p = x.arr + x.off q.1 i q.2 ∨ p = x.arrc + x.off q.1 i q.2 ∨ p = y.arr + y.off q.1 i q.2 ∨ p = y.arrc + y.off q.1 i q.2)) := by
      rintro ⟨a, b⟩ ⟨ha, hb⟩
      dsimp only at ha hb ⊢
      have hr := hR a ha b hb
      simp only [prod21K, ex, ey, er]
      exact pair_sum x.n1 (hs _ ha _ hb _ ha _ hb).2 hr.1 hr.2 (fun i hi => hX a (h0 ▸ ha) i hi b (h1 ▸ hb)) (fun i hi => hY a (h2 ▸ h0 ▸ ha) i (h3 ▸ hi) b (h4 ▸ h1 ▸ hb))
    have sep : ∀ i j, box2 r.n0 r.n1 i → box2 r.n0 r.n1 j → i ≠ j →
        ¬ (∃ k, k < x.n1 ∧ (r.arr + r.off i.1 i.2 = x.arr + x.off j.1 k j.2 ∨ r.arr + r.off i.1 i.2 = x.arrc + x.off j.1 k j.2 ∨ r.arr + r.off i.1 i.2 = y.arr + y.off j.1 k j.2 ∨
          r.arr + r.off i.1 i.2 = y.arrc + y.off j.1 k j.2)) ∧
        ¬ (∃ k, k < x.n1 ∧ (r.arrc + r.off i.1 i.2 = x.arr + x.off j.1 k j.2 ∨ r.arrc + r.off i.1 i.2 = x.arrc + x.off j.1 k j.2 ∨ r.arrc + r.off i.1 i.2 = y.arr + y.off j.1 k j.2 ∨
          r.arrc + r.off i.1 i.2 = y.arrc + y.off j.1 k j.2)) := by
      rintro ⟨a, b⟩ ⟨a', b'⟩ ⟨ha, hb⟩ ⟨ha', hb'⟩ -
      dsimp only at ha hb ha' hb' ⊢
      have kx : ∀ p, r.Cov p → ¬ ∃ k, k < x.n1 ∧ (p = x.arr + x.off a' k b' ∨ p = x.arrc + x.off a' k b' ∨ p = y.arr + y.off a' k b' ∨ p = y.arrc + y.off a' k b') := by
        rintro p hp ⟨k, hk, e | e | e | e⟩
        · exact hx p hp ⟨a', h0 ▸ ha', k, hk, b', h1 ▸ hb', .inl e⟩
        · exact hx p hp ⟨a', h0 ▸ ha', k, hk, b', h1 ▸ hb', .inr e⟩
        · exact hy p hp ⟨a', h2 ▸ h0 ▸ ha', k, h3 ▸ hk, b', h4 ▸ h1 ▸ hb', .inl e⟩
        · exact hy p hp ⟨a', h2 ▸ h0 ▸ ha', k, h3 ▸ hk, b', h4 ▸ h1 ▸ hb', .inr e⟩
      exact ⟨kx _ ⟨a, ha, b, hb, .inl rfl⟩, kx _ ⟨a, ha, b, hb, .inr rfl⟩⟩
    refine ⟨_, by simp only [addContractTo, h0, h1, h2, h3, h4, decide_true, Res.assrt_true, Res.ok_bind]; rfl, ?_⟩
    rw [prod21L, ← h0, ← h1]
    by_cases f1 : r.n0 * r.n1 ≤ 1024
    · rw [if_pos f1]
      refine (Ends.pairs' (S := fun q p => ∃ i, i < x.n1 ∧ (p = x.arr + x.off q.1 i q.2 ∨ p = x.arrc + x.off q.1 i q.2 ∨ p = y.arr + y.off q.1 i q.2 ∨ p = y.arrc + y.off q.1 i q.2))
        (idx := fun q => (q.2.x, q.2.y)) (covers_box _ _ _ (box2 r.n0 r.n1) _ (fun i => (⟨0, 0, 0⟩, ⟨i.1, i.2, 0⟩)) ?_ ?_ ?_ ?_ ?_ ?_ ?_ ?_) (own2 hs) ?_ sep).imp fun m' h => by rw [if_pos (by omega)]; exact has2 h
      · rintro ⟨a, b⟩ ⟨ha, hb⟩; dsimp only at *; omega
      · rintro ⟨a, b⟩ _; rfl
      · intro bx by' bz tx ty tz a1 a2 a3 a4 a5 a6; dsimp only [box2] at *; omega
      · exact Nat.le_of_ble_eq_true rfl
      · exact Nat.le_of_ble_eq_true rfl
      · exact Nat.le_of_ble_eq_true rfl
      · dsimp only; omega
      · exact Nat.le_of_ble_eq_true rfl
      · rintro ⟨⟨bx, by', bz⟩, ⟨tx, ty, tz⟩⟩ hq
        have := mem_ids'.1 hq
        exact pr (tx, ty) ⟨this.2.1, this.2.2.1⟩
    · rw [if_neg f1]
      by_cases f2 : r.n1 ≤ 1024
      · rw [if_pos f2]
        refine (Ends.pairs' (S := fun q p => ∃ i, i < x.n1 ∧ (p = x.arr + x.off q.1 i q.2 ∨ p = x.arrc + x.off q.1 i q.2 ∨ p = y.arr + y.off q.1 i q.2 ∨ p = y.arrc + y.off q.1 i q.2))
        (idx := fun q => (q.1.x, q.2.x)) (covers_box _ _ _ (box2 r.n0 r.n1) _ (fun i => (⟨i.1, 0, 0⟩, ⟨i.2, 0, 0⟩)) ?_ ?_ ?_ ?_ ?_ ?_ ?_ ?_) (own2 hs) ?_ sep).imp fun m' h => by rw [if_pos (by omega)]; exact has2 h
        · rintro ⟨a, b⟩ ⟨ha, hb⟩; dsimp only at *; omega
        · rintro ⟨a, b⟩ _; rfl
        · intro bx by' bz tx ty tz a1 a2 a3 a4 a5 a6; dsimp only [box2] at *; omega
        · exact h0'
        · exact Nat.le_of_ble_eq_true rfl
        · exact Nat.le_of_ble_eq_true rfl
        · dsimp only; omega
        · exact Nat.le_of_ble_eq_true rfl
        · rintro ⟨⟨bx, by', bz⟩, ⟨tx, ty, tz⟩⟩ hq
          have := mem_ids'.1 hq
          exact pr (bx, tx) ⟨this.1.1, this.2.1⟩
      · rw [if_neg f2]
        exact Ends.nil (by rw [if_neg (by omega)])
  case isFalse h =>
    simp only [addContractTo]
    by_cases h0 : r.n0 = x.n0
    · by_cases h1 : r.n1 = x.n2
      · by_cases h2 : y.n0 = x.n0
        · by_cases h3 : y.n1 = x.n1
          · have h4 : y.n2 ≠ x.n2 := fun e => h ⟨h0, h1, h2, h3, e⟩
            simp [h0, h1, h2, h3, h4]
          · simp [h0, h1, h2, h3]
        · simp [h0, h1, h2]
      · simp [h0, h1]
    · simp [h0]

/-- A row of 1025 entries: nothing is added, whatever the memory. -/
theorem C543_contract_fails [Ring α] (m : Buf α) : ∃ ls, addContractTo (⟨2050, 2051, 1, 1, 1025, 2050, 2050, 2⟩ : CV3) ⟨0, 1, 1, 1025, 2050, 2⟩ ⟨4100, 4101, 1, 1, 1025, 2050, 2050, 2⟩ = .ok ls ∧
    Ends ls m fun m' => m' = m := ⟨[], rfl, Ends.nil rfl⟩

/-- The same call on the CPU and on the GPU: the target holds 5, the product is 6; the CPU leaves 6 (it stores), the GPU 11 (it adds). -/
theorem C543_devices_fails : (∃ m', (⟨2, 3, 1, 1, 1, 2, 2, 2⟩ : CV3).addContractTo ⟨0, 1, 1, 1, 2, 2⟩ ⟨4, 5, 1, 1, 1, 2, 2, 2⟩ (Buf.ofList ([5, 0, 2, 0, 3, 0] : List Int)) = .ok m' ∧ m' 0 = some 6) ∧
    ∃ ls, addContractTo (⟨2, 3, 1, 1, 1, 2, 2, 2⟩ : CV3) ⟨0, 1, 1, 1, 2, 2⟩ ⟨4, 5, 1, 1, 1, 2, 2, 2⟩ = .ok ls ∧
      Ends ls (Buf.ofList ([5, 0, 2, 0, 3, 0] : List Int)) fun m' => m' 0 = some 11 := by
  refine ⟨⟨_, rfl, rfl⟩, ?_⟩
  have h := C543_contract_partial (α := Int) ⟨2, 3, 1, 1, 1, 2, 2, 2⟩ ⟨4, 5, 1, 1, 1, 2, 2, 2⟩ ⟨0, 1, 1, 1, 2, 2⟩ (by decide)
    (by rintro c ⟨i, hi, j, hj, e⟩ ⟨i', hi', j', hj', k', hk', f⟩; simp only [CV3.off, CV2.off] at *; omega)
    (by rintro c ⟨i, hi, j, hj, e⟩ ⟨i', hi', j', hj', k', hk', f⟩; simp only [CV3.off, CV2.off] at *; omega)
    (Buf.ofList ([5, 0, 2, 0, 3, 0] : List Int)) (fun _ _ => ⟨5, 0⟩) (fun _ _ _ => ⟨2, 0⟩) (fun _ _ _ => ⟨3, 0⟩) (by decide) (by decide) (by decide) (by decide)
  rw [if_pos ⟨rfl, rfl, rfl, rfl, rfl⟩] at h
  obtain ⟨ls, e, h⟩ := h
  refine ⟨ls, e, h.imp fun m' hm => ?_⟩
  rw [if_pos (by decide)] at hm
  exact (hm.1 0 (by decide) 0 (by decide)).1

/-! ## C544: the entrywise product of two matrices -/

/-- `c·x·y`, or `c·x·ȳ`, is added to every entry, whatever the order of the threads, if the matrix has columns.  Entries of `r` may be the same entries of `x` or `y`. -/
theorem C544_otimes_partial [CommRing α] (conj : Bool) (r x y : CV2) (c : α) (hs : r.Sep) (hx : r.Match x) (hy : r.Match y)
    (m : Buf α) (R X Y : Nat → Nat → Cx α) (hR : r.Has m R) (hX : x.Has m X) (hY : y.Has m Y) (hc : 0 < r.n1) (hn : r.n0 * r.n1 ≤ 32 * 2147483647) :
    if r.n0 = x.n0 ∧ r.n0 = y.n0 ∧ r.n1 = x.n1 ∧ r.n1 = y.n1 then
      ∃ ls, addOtimes conj r x y c = .ok ls ∧ Ends ls m fun m' =>
        r.Has m' (fun i j => R i j + Cx.scale c (X i j * if conj then (Y i j).conj else Y i j)) ∧ ∀ p, ¬ r.Cov p → m' p = m p
    else (addOtimes conj r x y c : Res (List (Launch α))) = .throw := by
  split
  case isTrue h =>
    obtain ⟨h0, h1, h2, h3⟩ := h
    have er : ∀ (v : CV2) a b, a * v.s0 + b * v.s1 = v.off a b := fun v a b => by simp only [CV2.off]; ring
    refine ⟨_, by simp only [addOtimes, decide_eq_true h0, decide_eq_true h1, decide_eq_true h2, decide_eq_true h3, Res.assrt_true, Res.ok_bind]; rfl, ?_⟩
    have hb : roundup32 (r.n0 * r.n1) / 32 = (r.n0 * r.n1 - 1) / 32 + 1 := Nat.mul_div_cancel _ (by omega)
    have hlt : ∀ k, k / r.n1 < r.n0 ↔ k < r.n0 * r.n1 := fun k => by rw [Nat.div_lt_iff_lt_mul hc]
    refine (Ends.pairs (D := box2 r.n0 r.n1) (fun q => ¬ (q.1.x * 32 + q.2.x) / r.n1 ≥ r.n0) (fun q => ((q.1.x * 32 + q.2.x) / r.n1, (q.1.x * 32 + q.2.x) % r.n1)) (own2 hs)
      (S := fun q p => p = x.arr + x.off q.1 q.2 ∨ p = x.arrc + x.off q.1 q.2 ∨ p = y.arr + y.off q.1 q.2 ∨ p = y.arrc + y.off q.1 q.2)
      (fun _ => valid_iff.2 ?_) ?_ ?_ ?_ ?_ ?_ ?_).imp fun m' h => has2 h
    · dsimp only
      rw [hb]
      omega
    · intro q _ g
      dsimp only [otimesK]
      rw [if_neg (by omega), if_pos (not_not.1 g)]
    · intro q _ g
      exact ⟨not_le.1 g, Nat.mod_lt _ hc⟩
    · rintro ⟨⟨bx, by', bz⟩, ⟨tx, ty, tz⟩⟩ hq ⟨⟨bx', by'', bz'⟩, ⟨tx', ty', tz'⟩⟩ hq' _ _ e
      obtain ⟨⟨a1, a2, a3⟩, a4, a5, a6⟩ := mem_ids'.1 hq
      obtain ⟨⟨b1, b2, b3⟩, b4, b5, b6⟩ := mem_ids'.1 hq'
      dsimp only at *
      have e1 := (Prod.mk.inj e).1
      have e2 := (Prod.mk.inj e).2
      have e3 := Nat.div_add_mod (bx * 32 + tx) r.n1
      have e4 := Nat.div_add_mod (bx' * 32 + tx') r.n1
      rw [e1, e2] at e3
      have e5 : bx * 32 + tx = bx' * 32 + tx' := e3.symm.trans e4
      obtain rfl : bx = bx' := by omega
      obtain rfl : tx = tx' := by omega
      obtain rfl : by' = by'' := by omega
      obtain rfl : bz = bz' := by omega
      obtain rfl : ty = ty' := by omega
      obtain rfl : tz = tz' := by omega
      rfl
    · rintro ⟨i, j⟩ ⟨hi, hj⟩
      dsimp only at hi hj
      have hk : i * r.n1 + j < r.n0 * r.n1 := by
        have := Nat.mul_le_mul_right r.n1 (Nat.succ_le_of_lt hi)
        rw [Nat.succ_mul] at this
        omega
      have hd : (i * r.n1 + j) / 32 * 32 + (i * r.n1 + j) % 32 = i * r.n1 + j := by omega
      have e1 : (i * r.n1 + j) / r.n1 = i := by rw [Nat.mul_comm, Nat.mul_add_div hc, Nat.div_eq_of_lt hj, Nat.add_zero]
      have e2 : (i * r.n1 + j) % r.n1 = j := by rw [Nat.mul_comm, Nat.mul_add_mod, Nat.mod_eq_of_lt hj]
      refine ⟨(⟨(i * r.n1 + j) / 32, 0, 0⟩, ⟨(i * r.n1 + j) % 32, 0, 0⟩), mem_ids'.2 ?_, ?_, ?_⟩
      · dsimp only
        rw [hb]
        omega
      · dsimp only
        rw [hd, e1]
        omega
      · dsimp only
        rw [hd, e1, e2]
    · intro q hq g
      have ha : (q.1.x * 32 + q.2.x) / r.n1 < r.n0 := not_le.1 g
      have hb' : (q.1.x * 32 + q.2.x) % r.n1 < r.n1 := Nat.mod_lt _ hc
      dsimp only [otimesK]
      rw [if_neg (by omega), if_neg g]
      generalize (q.1.x * 32 + q.2.x) / r.n1 = a at ha ⊢
      generalize (q.1.x * 32 + q.2.x) % r.n1 = b at hb' ⊢
      simp only [er]
      have hr := hR a ha b hb'
      have gx := hX a (h0 ▸ ha) b (h2 ▸ hb')
      have gy := hY a (h1 ▸ ha) b (h3 ▸ hb')
      have key := pair_prod (fun xr xi yr yi => (if conj then xr * yr + xi * yi else xr * yr - xi * yi) * c) (fun xr xi yr yi => (if conj then -xr * yi + xi * yr else xr * yi + xi * yr) * c)
        (hs _ ha _ hb' _ ha _ hb').2 hr.1 hr.2 gx.1 gx.2 gy.1 gy.2
      convert key using 1
      cases conj
      · refine Cx.ext ?_ ?_
        · change _ + c * ((X a b).re * (Y a b).re - (X a b).im * (Y a b).im) = _ + ((X a b).re * (Y a b).re - (X a b).im * (Y a b).im) * c
          ring
        · change _ + c * ((X a b).re * (Y a b).im + (X a b).im * (Y a b).re) = _ + ((X a b).re * (Y a b).im + (X a b).im * (Y a b).re) * c
          ring
      · refine Cx.ext ?_ ?_
        · change _ + c * ((X a b).re * (Y a b).re - (X a b).im * -(Y a b).im) = _ + ((X a b).re * (Y a b).re + (X a b).im * (Y a b).im) * c
          ring
        · change _ + c * ((X a b).re * -(Y a b).im + (X a b).im * (Y a b).re) = _ + (-(X a b).re * (Y a b).im + (X a b).im * (Y a b).re) * c
          ring
    · rintro ⟨a, b⟩ ⟨a', b'⟩ ⟨ha, hb1⟩ ⟨ha', hb1'⟩ hne
      dsimp only at ha hb1 ha' hb1' ⊢
      have nn : ¬ (a = a' ∧ b = b') := fun e => hne (Prod.ext e.1 e.2)
      have mx := hx a ha b hb1 a' (h0 ▸ ha') b' (h2 ▸ hb1')
      have my := hy a ha b hb1 a' (h1 ▸ ha') b' (h3 ▸ hb1')
      refine ⟨?_, ?_⟩
      · rintro (e | e | e | e)
        · exact nn (mx.1 e)
        · exact mx.2.2.1 e
        · exact nn (my.1 e)
        · exact my.2.2.1 e
      · rintro (e | e | e | e)
        · exact mx.2.2.2 e
        · exact nn (mx.2.1 e)
        · exact my.2.2.2 e
        · exact nn (my.2.1 e)
  case isFalse h =>
    simp only [addOtimes]
    by_cases h0 : r.n0 = x.n0
    · by_cases h1 : r.n0 = y.n0
      · by_cases h2 : r.n1 = x.n1
        · have h3 : r.n1 ≠ y.n1 := fun e => h ⟨h0, h1, h2, e⟩
          rw [decide_eq_true h0, decide_eq_true h1, decide_eq_true h2, decide_eq_false h3]; rfl
        · rw [decide_eq_true h0, decide_eq_true h1, decide_eq_false h2]; rfl
      · rw [decide_eq_true h0, decide_eq_false h1]; rfl
    · rw [decide_eq_false h0]; rfl

/-- A matrix without columns: 32 threads are started all the same (`roundup(0,32)` is 32), and each divides by the number of columns. -/
theorem C544_otimes_fails [CommRing α] (c : α) (m : Buf α) : ∃ ls, addOtimes false (⟨0, 1, 3, 0, 2, 2⟩ : CV2) ⟨0, 1, 3, 0, 2, 2⟩ ⟨0, 1, 3, 0, 2, 2⟩ c = .ok ls ∧ Out ls m .ub := by
  exact ⟨_, rfl, Out.bad rfl [0] rfl⟩

/-- A 2×20 target (cells 0–79) and the arguments at 100 and 200. -/
example : (⟨0, 1, 2, 20, 40, 2⟩ : CV2).Sep ∧ (⟨0, 1, 2, 20, 40, 2⟩ : CV2).Match ⟨100, 101, 2, 20, 40, 2⟩ ∧ (⟨0, 1, 2, 20, 40, 2⟩ : CV2).Match ⟨0, 1, 2, 20, 40, 2⟩ := by
  refine ⟨?_, ?_, ?_⟩ <;>
  · intro i hi j hj a ha b hb
    simp only [CV2.off] at *
    omega

end GpuC

end Cnine
