import Verif.Props.GpuS

/-!
# Slices and ReLU on the GPU
-/

namespace Cnine

open Gpu

variable {α β ι : Type}

theorem ldIx_bind (mi : Buf Int) (p : Nat) (i : Int) (f : Int → Thr α β) (h : mi p = some i) : (ldIx mi p >>= f) = f i := by
  rw [ldIx, h]
  rfl

theorem addr_bind (p : Int) (n : Nat) (f : Nat → Thr α β) (h : p = (n : Int)) : (addr p >>= f) = f n := by
  rw [addr, h, if_pos (Int.natCast_nonneg n), Int.toNat_natCast]
  rfl

/-! ### C415, C416: multiplying slices (and C420, C421: where that fails) -/

/-- The threads of the kernels that multiply a cell by a factor. -/
def Gpu.scaleThr [Mul α] (p c : Nat) : Thr α Unit := do
  let f ← Thr.rd c
  let v ← Thr.rd p
  Thr.wr p (v * f)

theorem scale_one [Mul α] (m : Buf α) (p c : Nat) (a f : α) (hp : m p = some a) (hc : m c = some f) : One m (scaleThr p c) p (a * f) fun q => q = c := by
  refine ⟨(Within.rd ?_).bind fun _ => (Within.rd ?_).bind fun _ => Within.wr ?_, ?_⟩
  · exact .inl rfl
  · exact .inr rfl
  · exact rfl
  rw [scaleThr, Thr.run_bind, Thr.run_rd hc, Res.ok_bind, Thr.run_bind, Thr.run_rd hp, Res.ok_bind]
  exact Thr.run_wr _ hp

/-- Multiplying some rows of a matrix by factors on the GPU: each row named by an index is multiplied by its factor, if no index occurs twice. -/
theorem C415_rows [Mul α] (mi : Buf Int) (x : RV2) (n ix c : Nat) (I : Nat → Nat) (m : Buf α) (a : Nat → Nat → α) (f : Nat → α) (hn : n ≤ 2147483647) (h1 : x.n1 ≤ 1024)
    (hI : ∀ b, b < n → mi (ix + b) = some (I b : Int) ∧ I b < x.n0) (hd : ∀ b b', b < n → b' < n → I b = I b' → b = b')
    (inj : ∀ i j i' j', i < x.n0 → j < x.n1 → i' < x.n0 → j' < x.n1 → x.cell i j = x.cell i' j' → i = i' ∧ j = j') (ha : ∀ i j, i < x.n0 → j < x.n1 → m (x.cell i j) = some (a i j))
    (hf : ∀ b, b < n → m (c + b) = some (f b)) (hc : ∀ b i j, b < n → i < x.n0 → j < x.n1 → x.cell i j ≠ c + b) :
    Ends (scale2 mi x n ix c) m fun m' => Upd m m' (fun q : Nat × Nat => q.1 < n ∧ q.2 < x.n1) (fun q => x.cell (I q.1) q.2) fun q => a (I q.1) q.2 * f q.1 := by
  rw [scale2, if_pos h1]
  have hcv : Covers (⟨⟨n, 1, 1⟩, ⟨x.n1, 1, 1⟩, kScaleT mi x.arr x.s0 x.s1 ix c⟩ : Launch α) (box2 n x.n1) (fun q => (q.1.x, q.2.x)) := by
    refine covers_box _ _ _ _ _ (fun i => (⟨i.1, 0, 0⟩, ⟨i.2, 0, 0⟩)) ?_ ?_ ?_ ?_ ?_ ?_ ?_ ?_
    all_goals box
  refine Ends.covers (S := fun i p => p = c + i.1) hcv (fun q hq => ?_) ?_ ?_
  · have hm := hcv.mem q hq
    have e : kScaleT (α := α) mi x.arr x.s0 x.s1 ix c q.1 q.2 = scaleThr (x.cell (I q.1.x) q.2.x) (c + q.1.x) := by
      rw [kScaleT, ldIx_bind mi _ _ _ (hI _ hm.1).1, addr_bind _ (x.cell (I q.1.x) q.2.x) _ (by rw [RV2.cell]; push_cast; ring)]
      rfl
    dsimp only
    rw [e]
    exact scale_one m _ _ _ _ (ha _ _ (hI _ hm.1).2 hm.2) (hf _ hm.1)
  · rintro ⟨b, j⟩ ⟨b', j'⟩ ⟨hb, hj⟩ ⟨hb', hj'⟩ e
    obtain ⟨e1, e2⟩ := inj _ _ _ _ (hI _ hb).2 hj (hI _ hb').2 hj' e
    exact Prod.ext (hd _ _ hb hb' e1) e2
  · rintro ⟨b, j⟩ ⟨b', j'⟩ ⟨hb, hj⟩ ⟨hb', hj'⟩ _ e
    exact hc b' _ _ hb' (hI _ hb).2 hj e

/-- Rows 4 and 1 of a 5 x 3 matrix. -/
example : (∀ b, b < 2 → (fun p => if p = 0 then some (4 : Int) else some 1) (0 + b) = some ((if b = 0 then 4 else 1 : Nat) : Int) ∧ (if b = 0 then 4 else 1) < 5) ∧
    (∀ i j i' j', i < 5 → j < 3 → i' < 5 → j' < 3 → (⟨0, 5, 3, 3, 1⟩ : RV2).cell i j = (⟨0, 5, 3, 3, 1⟩ : RV2).cell i' j' → i = i' ∧ j = j') ∧
    ∀ b i j, b < 2 → i < 5 → j < 3 → (⟨0, 5, 3, 3, 1⟩ : RV2).cell i j ≠ 15 + b := by
  refine ⟨fun b hb => ?_, fun i j i' j' _ _ _ _ e => ?_, fun b i j _ _ _ => ?_⟩
  · rcases (show b = 0 ∨ b = 1 by omega) with rfl | rfl <;> decide
  · simp only [RV2.cell] at e; omega
  · simp only [RV2.cell]; omega

/-- If an index occurs twice, the two multiplications race: row 0 of a 1 x 1 matrix to be multiplied by 2 and by 3 can end up multiplied by 3 only. -/
theorem C421_twice_fails (m : Buf Nat) (h0 : m 0 = some 5) (h1 : m 1 = some 2) (h2 : m 2 = some 3) :
    ∃ m', Out (scale2 (fun _ => some 0) ⟨0, 1, 1, 1, 1⟩ 2 0 1) m (.ok m') ∧ m' 0 = some 15 := by
  have hs : (⟨⟨2, 1, 1⟩, ⟨1, 1, 1⟩, kScaleT (fun _ => some 0) 0 1 1 0 1⟩ : Launch Nat).start = [scaleThr 0 1, scaleThr 0 2] := rfl
  refine ⟨fun q => if q = 0 then some 15 else if q = 0 then some 10 else m q, .ran rfl [0, 0, 1, 1, 0, 1] _ [.ret (), .ret ()] ?_ ?_ (.nil _), rfl⟩
  · rw [hs]
    simp [exec, step, scaleThr, Thr.rd, Thr.wr, h0, h1, h2, bind, Thr.bind, Res.bind]
  · intro t ht
    simp only [List.mem_cons, List.not_mem_nil, or_false, or_self] at ht
    rw [ht]
    rfl

/-- A matrix with more than 1024 columns is left as it is. -/
theorem C420_rows_fails [Mul α] (mi : Buf Int) (x : RV2) (n ix c : Nat) (h : 1024 < x.n1) : scale2 (α := α) mi x n ix c = [] := by
  rw [scale2, if_neg (by omega)]

/-- Multiplying some slices of a tensor with three axes by factors on the GPU. -/
theorem C416_slices [Mul α] (mi : Buf Int) (x : RV3) (n ix c : Nat) (I : Nat → Nat) (m : Buf α) (a : Nat → Nat → Nat → α) (f : Nat → α) (hn : n ≤ 2147483647)
    (hs : x.n1 * x.n2 ≤ 1024 ∨ (x.n2 % 32 < x.n1 % 32 ∧ x.n2 ≤ 1024 ∧ x.n1 ≤ 65535) ∨ (x.n1 % 32 ≤ x.n2 % 32 ∧ x.n1 ≤ 1024 ∧ x.n2 ≤ 65535))
    (hI : ∀ b, b < n → mi (ix + b) = some (I b : Int) ∧ I b < x.n0) (hd : ∀ b b', b < n → b' < n → I b = I b' → b = b')
    (inj : ∀ i j k i' j' k', i < x.n0 → j < x.n1 → k < x.n2 → i' < x.n0 → j' < x.n1 → k' < x.n2 → x.cell i j k = x.cell i' j' k' → i = i' ∧ j = j' ∧ k = k')
    (ha : ∀ i j k, i < x.n0 → j < x.n1 → k < x.n2 → m (x.cell i j k) = some (a i j k)) (hf : ∀ b, b < n → m (c + b) = some (f b))
    (hc : ∀ b i j k, b < n → i < x.n0 → j < x.n1 → k < x.n2 → x.cell i j k ≠ c + b) :
    Ends (scale3 mi x n ix c) m fun m' => Upd m m' (fun q : Nat × Nat × Nat => q.1 < n ∧ q.2.1 < x.n1 ∧ q.2.2 < x.n2) (fun q => x.cell (I q.1) q.2.1 q.2.2) fun q => a (I q.1) q.2.1 q.2.2 * f q.1 := by
  have hinj : ∀ i j : Nat × Nat × Nat, box3 n x.n1 x.n2 i → box3 n x.n1 x.n2 j → x.cell (I i.1) i.2.1 i.2.2 = x.cell (I j.1) j.2.1 j.2.2 → i = j := by
    rintro ⟨b, j, k⟩ ⟨b', j', k'⟩ ⟨hb, hj, hk⟩ ⟨hb', hj', hk'⟩ e
    obtain ⟨e1, e2, e3⟩ := inj _ _ _ _ _ _ (hI _ hb).2 hj hk (hI _ hb').2 hj' hk' e
    exact Prod.ext (hd _ _ hb hb' e1) (Prod.ext e2 e3)
  have hS : ∀ i j : Nat × Nat × Nat, box3 n x.n1 x.n2 i → box3 n x.n1 x.n2 j → i ≠ j → ¬ (fun (i : Nat × Nat × Nat) p => p = c + i.1) j (x.cell (I i.1) i.2.1 i.2.2) := by
    rintro ⟨b, j, k⟩ ⟨b', j', k'⟩ ⟨hb, hj, hk⟩ ⟨hb', hj', hk'⟩ _ e
    exact hc b' _ _ _ hb' (hI _ hb).2 hj hk e
  have run : ∀ (l : Launch α) (idx : D3 × D3 → Nat × Nat × Nat), Covers l (box3 n x.n1 x.n2) idx →
      (∀ q ∈ l.ids, l.kern q.1 q.2 = scaleThr (x.cell (I (idx q).1) (idx q).2.1 (idx q).2.2) (c + (idx q).1)) →
      Ends [l] m fun m' => Upd m m' (box3 n x.n1 x.n2) (fun q => x.cell (I q.1) q.2.1 q.2.2) fun q => a (I q.1) q.2.1 q.2.2 * f q.1 := fun l idx hcv hk =>
    Ends.covers (S := fun i p => p = c + i.1) hcv (fun q hq => by
      have hm := hcv.mem q hq
      rw [hk q hq]
      exact scale_one m _ _ _ _ (ha _ _ _ (hI _ hm.1).2 hm.2.1 hm.2.2) (hf _ hm.1)) hinj hS
  rw [scale3]
  split
  · have hcv : Covers (⟨⟨n, 1, 1⟩, ⟨x.n1, x.n2, 1⟩, kScaleTT mi x.arr x.s0 x.s1 x.s2 ix c⟩ : Launch α) (box3 n x.n1 x.n2) (fun q => (q.1.x, q.2.x, q.2.y)) := by
      refine covers_box _ _ _ _ _ (fun i => (⟨i.1, 0, 0⟩, ⟨i.2.1, i.2.2, 0⟩)) ?_ ?_ ?_ ?_ ?_ ?_ ?_ ?_
      all_goals box
    refine run _ _ hcv fun q hq => ?_
    dsimp only
    rw [kScaleTT, ldIx_bind mi _ _ _ (hI _ (hcv.mem q hq).1).1, addr_bind _ (x.cell (I q.1.x) q.2.x q.2.y) _ (by rw [RV3.cell]; push_cast; ring)]
    rfl
  · rw [if_pos (by omega)]
    split
    · have hcv : Covers (⟨⟨n, x.n1, 1⟩, ⟨x.n2, 1, 1⟩, kScaleBT mi x.arr x.s0 x.s1 x.s2 ix c⟩ : Launch α) (box3 n x.n1 x.n2) (fun q => (q.1.x, q.1.y, q.2.x)) := by
        refine covers_box _ _ _ _ _ (fun i => (⟨i.1, i.2.1, 0⟩, ⟨i.2.2, 0, 0⟩)) ?_ ?_ ?_ ?_ ?_ ?_ ?_ ?_
        all_goals box
      refine run _ _ hcv fun q hq => ?_
      dsimp only
      rw [kScaleBT, ldIx_bind mi _ _ _ (hI _ (hcv.mem q hq).1).1, addr_bind _ (x.cell (I q.1.x) q.1.y q.2.x) _ (by rw [RV3.cell]; push_cast; ring)]
      rfl
    · have hcv : Covers (⟨⟨n, x.n2, 1⟩, ⟨x.n1, 1, 1⟩, kScaleBT mi x.arr x.s0 x.s2 x.s1 ix c⟩ : Launch α) (box3 n x.n1 x.n2) (fun q => (q.1.x, q.2.x, q.1.y)) := by
        refine covers_box _ _ _ _ _ (fun i => (⟨i.1, i.2.2, 0⟩, ⟨i.2.1, 0, 0⟩)) ?_ ?_ ?_ ?_ ?_ ?_ ?_ ?_
        all_goals box
      refine run _ _ hcv fun q hq => ?_
      dsimp only
      rw [kScaleBT, ldIx_bind mi _ _ _ (hI _ (hcv.mem q hq).1).1, addr_bind _ (x.cell (I q.1.x) q.2.x q.1.y) _ (by rw [RV3.cell]; push_cast; ring)]
      rfl

example : (33 : Nat) * 32 > 1024 ∧ 32 % 32 < 33 % 32 ∧ 32 ≤ 1024 ∧ 33 ≤ 65535 ∧
    ∀ i j k i' j' k', i < 2 → j < 33 → k < 32 → i' < 2 → j' < 33 → k' < 32 → (⟨0, 2, 33, 32, 1056, 32, 1⟩ : RV3).cell i j k = (⟨0, 2, 33, 32, 1056, 32, 1⟩ : RV3).cell i' j' k' →
      i = i' ∧ j = j' ∧ k = k' := by
  refine ⟨by decide, by decide, by decide, by decide, fun i j k i' j' k' _ _ _ _ _ _ e => ?_⟩
  simp only [RV3.cell] at e
  omega

/-- For all other sizes nothing happens. -/
theorem C420_slices_fails [Mul α] (mi : Buf Int) (x : RV3) (n ix c : Nat) (m : Buf α)
    (hs : ¬ (x.n1 * x.n2 ≤ 1024 ∨ (x.n2 % 32 < x.n1 % 32 ∧ x.n2 ≤ 1024 ∧ x.n1 ≤ 65535) ∨ (x.n1 % 32 ≤ x.n2 % 32 ∧ x.n1 ≤ 1024 ∧ x.n2 ≤ 65535))) :
    Ends (scale3 mi x n ix c) m fun m' => m' = m := by
  rw [scale3, if_neg (by omega)]
  split
  · split
    · refine ends_skip m ?_
      rw [← Bool.not_eq_true, valid_iff]
      dsimp only
      omega
    · refine ends_skip m ?_
      rw [← Bool.not_eq_true, valid_iff]
      dsimp only
      omega
  · exact Ends.nil rfl

/-- For example with one row of 1056. -/
example : ¬ ((1 : Nat) * 1056 ≤ 1024 ∨ (1056 % 32 < 1 % 32 ∧ 1056 ≤ 1024 ∧ 1 ≤ 65535) ∨ (1 % 32 ≤ 1056 % 32 ∧ 1 ≤ 1024 ∧ 1056 ≤ 65535)) := by decide

/-- Adding to one cell (part of C404). -/
theorem C404_increment [Add α] (p : Nat) (v a : α) (m : Buf α) (h : m p = some a) : Ends (incOne p v) m fun m' => m' p = some (a + v) ∧ ∀ q, q ≠ p → m' q = m q := by
  refine (Ends.covers (D := fun _ : Unit => True) (c := fun _ => p) (v := fun _ => a + v) (S := fun _ _ => False) (idx := fun _ => ())
    (covers_box _ _ _ _ _ (fun _ => (⟨0, 0, 0⟩, ⟨0, 0, 0⟩)) ?_ ?_ ?_ ?_ ?_ ?_ ?_ ?_) (fun q _ => ⟨Within.inc (W := fun q => q = p) rfl, Thr.run_inc v h⟩) (fun _ _ _ _ _ => rfl) fun _ _ _ _ _ h => h).imp
    fun m' hu => ⟨hu.1 () trivial, fun q hq => hu.2 q fun _ _ => hq⟩
  · exact fun _ _ => ⟨⟨Nat.one_pos, Nat.one_pos, Nat.one_pos⟩, Nat.one_pos, Nat.one_pos, Nat.one_pos⟩
  · exact fun _ _ => rfl
  · intro bx by' bz tx ty tz h1 h2 h3 h4 h5 h6
    dsimp only at h1 h2 h3 h4 h5 h6 ⊢
    refine ⟨trivial, ⟨?_, ?_, ?_⟩, ?_, ?_, ?_⟩ <;> omega
  all_goals decide

example : ∃ m : Buf Int, m 3 = some 5 := ⟨fun _ => some 5, rfl⟩

/-! ### C417, C418: rotating pairs of slices -/

/-- The threads of the kernels that rotate two cells. -/
def Gpu.turn [Add α] [Sub α] [Mul α] (c0 c1 p0 p1 : Nat) : Thr α Unit := do
  let c0 ← Thr.rd c0
  let c1 ← Thr.rd c1
  let t0 ← Thr.rd p0
  let t1 ← Thr.rd p1
  Thr.wr p0 (c0 * t0 + c1 * t1)
  Thr.wr p1 (c0 * t1 - c1 * t0)

theorem turn_run [Add α] [Sub α] [Mul α] (m : Buf α) (c0 c1 p0 p1 : Nat) (f0 f1 t0 t1 : α) (h0 : m c0 = some f0) (h1 : m c1 = some f1) (h2 : m p0 = some t0) (h3 : m p1 = some t1) (hne : p0 ≠ p1) :
    (turn c0 c1 p0 p1).run m = .ok (fun p => if p = p1 then some (f0 * t1 - f1 * t0) else if p = p0 then some (f0 * t0 + f1 * t1) else m p, ()) := by
  rw [turn, Thr.run_bind, Thr.run_rd h0, Res.ok_bind, Thr.run_bind, Thr.run_rd h1, Res.ok_bind, Thr.run_bind, Thr.run_rd h2, Res.ok_bind, Thr.run_bind, Thr.run_rd h3, Res.ok_bind,
    Thr.run_bind, Thr.run_wr _ h2, Res.ok_bind]
  exact Thr.run_wr _ (w := t1) (by dsimp only; rw [if_neg (fun e => hne e.symm)]; exact h3)

theorem turn_within [Add α] [Sub α] [Mul α] (R W : Nat → Prop) (c0 c1 p0 p1 : Nat) (h0 : R c0) (h1 : R c1) (h2 : W p0) (h3 : W p1) : Within R W (turn (α := α) c0 c1 p0 p1) :=
  (Within.rd (.inl h0)).bind fun _ => (Within.rd (.inl h1)).bind fun _ => (Within.rd (.inr h2)).bind fun _ => (Within.rd (.inr h3)).bind fun _ => (Within.wr h2).bind fun _ => Within.wr h3

/-- A launch whose threads rotate pairs of cells. -/
theorem turn_launch [Add α] [Sub α] [Mul α] {l : Launch α} {m : Buf α} {D : ι → Prop} {idx : D3 × D3 → ι} (hcv : Covers l D idx) (k0 k1 p0 p1 : ι → Nat) (f0 f1 t0 t1 : ι → α)
    (hk : ∀ q ∈ l.ids, l.kern q.1 q.2 = turn (k0 (idx q)) (k1 (idx q)) (p0 (idx q)) (p1 (idx q)))
    (h0 : ∀ i, D i → m (k0 i) = some (f0 i)) (h1 : ∀ i, D i → m (k1 i) = some (f1 i)) (h2 : ∀ i, D i → m (p0 i) = some (t0 i)) (h3 : ∀ i, D i → m (p1 i) = some (t1 i))
    (i0 : ∀ i j, D i → D j → p0 i = p0 j → i = j) (i1 : ∀ i j, D i → D j → p1 i = p1 j → i = j) (i2 : ∀ i j, D i → D j → p0 i ≠ p1 j)
    (hc : ∀ i j, D i → D j → k0 i ≠ p0 j ∧ k0 i ≠ p1 j ∧ k1 i ≠ p0 j ∧ k1 i ≠ p1 j) :
    Ends [l] m fun m' => (∀ i, D i → m' (p0 i) = some (f0 i * t0 i + f1 i * t1 i) ∧ m' (p1 i) = some (f0 i * t1 i - f1 i * t0 i)) ∧ ∀ p, (∀ i, D i → p ≠ p0 i ∧ p ≠ p1 i) → m' p = m p := by
  by_cases hne : ∃ i, D i
  · refine (Ends.own (hcv.valid hne) (fun q p => p = k0 (idx q) ∨ p = k1 (idx q)) (fun q p => p = p0 (idx q) ∨ p = p1 (idx q))
      (fun q p => if p = p1 (idx q) then some (f0 (idx q) * t1 (idx q) - f1 (idx q) * t0 (idx q)) else if p = p0 (idx q) then some (f0 (idx q) * t0 (idx q) + f1 (idx q) * t1 (idx q)) else m p)
      (fun q hq => ?_) ?_ fun q hq => ?_).imp fun m' h => ⟨fun i hi => ?_, fun p hp => ?_⟩
    · rw [hk q hq]
      exact turn_within _ _ _ _ _ _ (.inl rfl) (.inr rfl) (.inl rfl) (.inr rfl)
    · intro q hq q' hq' hqq p hp
      have hD := hcv.mem q hq
      have hD' := hcv.mem q' hq'
      have hne' : idx q ≠ idx q' := fun e => hqq (hcv.inj q hq q' hq' e)
      obtain ⟨g1, g2, g3, g4⟩ := hc _ _ hD' hD
      rcases hp with rfl | rfl
      · exact ⟨fun e => e.elim (fun e => hne' (i0 _ _ hD hD' e)) (fun e => i2 _ _ hD hD' e), fun e => e.elim (fun e => g1 e.symm) fun e => g3 e.symm⟩
      · exact ⟨fun e => e.elim (fun e => i2 _ _ hD' hD e.symm) (fun e => hne' (i1 _ _ hD hD' e)), fun e => e.elim (fun e => g2 e.symm) fun e => g4 e.symm⟩
    · have hD := hcv.mem q hq
      rw [hk q hq]
      exact turn_run m _ _ _ _ _ _ _ _ (h0 _ hD) (h1 _ hD) (h2 _ hD) (h3 _ hD) (i2 _ _ hD hD)
    · obtain ⟨q, hq, rfl⟩ := hcv.surj i hi
      exact ⟨by rw [h.1 q hq _ (.inl rfl), if_neg (i2 _ _ hi hi), if_pos rfl], by rw [h.1 q hq _ (.inr rfl), if_pos rfl]⟩
    · exact h.2 p fun q hq e => e.elim (fun e => (hp _ (hcv.mem q hq)).1 e) fun e => (hp _ (hcv.mem q hq)).2 e
  · have hno : l.ids = [] := by
      rw [List.eq_nil_iff_forall_not_mem]
      exact fun q hq => hne ⟨_, hcv.mem q hq⟩
    have hn : ∀ i, ¬ D i := fun i hi => hne ⟨i, hi⟩
    have := Ends.cells (l := l) (m := m) D p0 t0 (fun _ _ => False) idx hcv.valid hcv.mem hcv.inj hcv.surj (fun q hq => absurd (hcv.mem q hq) (hn _)) i0 (fun i _ hi => absurd hi (hn i))
    exact this.imp fun m' h => ⟨fun i hi => absurd hi (hn i), fun p _ => h.2 p fun i hi => absurd hi (hn i)⟩

theorem givens_eq [Add α] [Sub α] [Mul α] (mi : Buf Int) (arr s0 ix c blk offs p0 p1 : Nat) (I0 I1 : Int) (h0 : mi (ix + blk * 2) = some I0) (h1 : mi (ix + (blk * 2 + 1)) = some I1)
    (e0 : (arr : Int) + (I0 * s0 + offs) = (p0 : Int)) (e1 : (arr : Int) + (I1 * s0 + offs) = (p1 : Int)) :
    givensBody (α := α) mi arr s0 ix c blk offs = turn (c + blk * 2) (c + (blk * 2 + 1)) p0 p1 := by
  rw [givensBody, ldIx_bind mi _ _ _ h0, ldIx_bind mi _ _ _ h1]
  simp only [addr_bind _ _ _ e0, addr_bind _ _ _ e1]
  rfl

/-- Rotating pairs of rows of a matrix on the GPU, if no row occurs twice. -/
theorem C417_rows [Add α] [Sub α] [Mul α] (mi : Buf Int) (x : RV2) (n ix c : Nat) (I J : Nat → Nat) (m : Buf α) (a : Nat → Nat → α) (f g : Nat → α) (hn : n ≤ 2147483647) (h1 : x.n1 ≤ 1024)
    (hI : ∀ b, b < n → mi (ix + b * 2) = some (I b : Int) ∧ I b < x.n0) (hJ : ∀ b, b < n → mi (ix + (b * 2 + 1)) = some (J b : Int) ∧ J b < x.n0)
    (hd : ∀ b b', b < n → b' < n → (I b = I b' → b = b') ∧ (J b = J b' → b = b') ∧ I b ≠ J b')
    (inj : ∀ i j i' j', i < x.n0 → j < x.n1 → i' < x.n0 → j' < x.n1 → x.cell i j = x.cell i' j' → i = i' ∧ j = j') (ha : ∀ i j, i < x.n0 → j < x.n1 → m (x.cell i j) = some (a i j))
    (hf : ∀ b, b < n → m (c + b * 2) = some (f b)) (hg : ∀ b, b < n → m (c + (b * 2 + 1)) = some (g b)) (hc : ∀ b i j, b < 2 * n → i < x.n0 → j < x.n1 → x.cell i j ≠ c + b) :
    Ends (givens2 mi x n ix c) m fun m' => (∀ b j, b < n → j < x.n1 → m' (x.cell (I b) j) = some (f b * a (I b) j + g b * a (J b) j) ∧ m' (x.cell (J b) j) = some (f b * a (J b) j - g b * a (I b) j)) ∧
      ∀ p, (∀ b j, b < n → j < x.n1 → p ≠ x.cell (I b) j ∧ p ≠ x.cell (J b) j) → m' p = m p := by
  rw [givens2, if_pos h1]
  have hcv : Covers (⟨⟨n, 1, 1⟩, ⟨x.n1, 1, 1⟩, kGivensT mi x.arr x.s0 x.s1 ix c⟩ : Launch α) (box2 n x.n1) (fun q => (q.1.x, q.2.x)) := by
    refine covers_box _ _ _ _ _ (fun i => (⟨i.1, 0, 0⟩, ⟨i.2, 0, 0⟩)) ?_ ?_ ?_ ?_ ?_ ?_ ?_ ?_
    all_goals box
  refine (turn_launch hcv (fun q => c + q.1 * 2) (fun q => c + (q.1 * 2 + 1)) (fun q => x.cell (I q.1) q.2) (fun q => x.cell (J q.1) q.2) (fun q => f q.1) (fun q => g q.1)
    (fun q => a (I q.1) q.2) (fun q => a (J q.1) q.2) (fun q hq => ?_) (fun q hq => hf _ hq.1) (fun q hq => hg _ hq.1) (fun q hq => ha _ _ (hI _ hq.1).2 hq.2)
    (fun q hq => ha _ _ (hJ _ hq.1).2 hq.2) ?_ ?_ ?_ ?_).imp fun m' h => ⟨fun b j hb hj => h.1 (b, j) ⟨hb, hj⟩, fun p hp => h.2 p fun q hq => hp q.1 q.2 hq.1 hq.2⟩
  · have hm := hcv.mem q hq
    exact givens_eq mi _ _ _ _ _ _ _ _ _ _ (hI _ hm.1).1 (hJ _ hm.1).1 (by rw [RV2.cell]; push_cast; ring) (by rw [RV2.cell]; push_cast; ring)
  · rintro ⟨b, j⟩ ⟨b', j'⟩ ⟨hb, hj⟩ ⟨hb', hj'⟩ e
    obtain ⟨e1, e2⟩ := inj _ _ _ _ (hI _ hb).2 hj (hI _ hb').2 hj' e
    exact Prod.ext ((hd _ _ hb hb').1 e1) e2
  · rintro ⟨b, j⟩ ⟨b', j'⟩ ⟨hb, hj⟩ ⟨hb', hj'⟩ e
    obtain ⟨e1, e2⟩ := inj _ _ _ _ (hJ _ hb).2 hj (hJ _ hb').2 hj' e
    exact Prod.ext ((hd _ _ hb hb').2.1 e1) e2
  · rintro ⟨b, j⟩ ⟨b', j'⟩ ⟨hb, hj⟩ ⟨hb', hj'⟩ e
    exact (hd _ _ hb hb').2.2 (inj _ _ _ _ (hI _ hb).2 hj (hJ _ hb').2 hj' e).1
  · rintro ⟨b, j⟩ ⟨b', j'⟩ ⟨hb, hj⟩ ⟨hb', hj'⟩
    dsimp only at *
    exact ⟨fun e => hc (b * 2) _ _ (by omega) (hI _ hb').2 hj' e.symm, fun e => hc (b * 2) _ _ (by omega) (hJ _ hb').2 hj' e.symm,
      fun e => hc (b * 2 + 1) _ _ (by omega) (hI _ hb').2 hj' e.symm, fun e => hc (b * 2 + 1) _ _ (by omega) (hJ _ hb').2 hj' e.symm⟩

/-- The same for slices of a tensor with three axes if they have at most 1024 entries. -/
theorem C417_slices [Add α] [Sub α] [Mul α] (mi : Buf Int) (x : RV3) (n ix c : Nat) (I J : Nat → Nat) (m : Buf α) (a : Nat → Nat → Nat → α) (f g : Nat → α) (hn : n ≤ 2147483647)
    (h1 : x.n1 * x.n2 ≤ 1024) (hI : ∀ b, b < n → mi (ix + b * 2) = some (I b : Int) ∧ I b < x.n0) (hJ : ∀ b, b < n → mi (ix + (b * 2 + 1)) = some (J b : Int) ∧ J b < x.n0)
    (hd : ∀ b b', b < n → b' < n → (I b = I b' → b = b') ∧ (J b = J b' → b = b') ∧ I b ≠ J b')
    (inj : ∀ i j k i' j' k', i < x.n0 → j < x.n1 → k < x.n2 → i' < x.n0 → j' < x.n1 → k' < x.n2 → x.cell i j k = x.cell i' j' k' → i = i' ∧ j = j' ∧ k = k')
    (ha : ∀ i j k, i < x.n0 → j < x.n1 → k < x.n2 → m (x.cell i j k) = some (a i j k)) (hf : ∀ b, b < n → m (c + b * 2) = some (f b)) (hg : ∀ b, b < n → m (c + (b * 2 + 1)) = some (g b))
    (hc : ∀ b i j k, b < 2 * n → i < x.n0 → j < x.n1 → k < x.n2 → x.cell i j k ≠ c + b) :
    Ends (givens3 mi x n ix c) m fun m' => (∀ b j k, b < n → j < x.n1 → k < x.n2 → m' (x.cell (I b) j k) = some (f b * a (I b) j k + g b * a (J b) j k) ∧
        m' (x.cell (J b) j k) = some (f b * a (J b) j k - g b * a (I b) j k)) ∧
      ∀ p, (∀ b j k, b < n → j < x.n1 → k < x.n2 → p ≠ x.cell (I b) j k ∧ p ≠ x.cell (J b) j k) → m' p = m p := by
  rw [givens3, if_pos h1]
  have hcv : Covers (⟨⟨n, 1, 1⟩, ⟨x.n1, x.n2, 1⟩, kGivensTT mi x.arr x.s0 x.s1 x.s2 ix c⟩ : Launch α) (box3 n x.n1 x.n2) (fun q => (q.1.x, q.2.x, q.2.y)) := by
    refine covers_box _ _ _ _ _ (fun i => (⟨i.1, 0, 0⟩, ⟨i.2.1, i.2.2, 0⟩)) ?_ ?_ ?_ ?_ ?_ ?_ ?_ ?_
    all_goals box
  refine (turn_launch hcv (fun q => c + q.1 * 2) (fun q => c + (q.1 * 2 + 1)) (fun q => x.cell (I q.1) q.2.1 q.2.2) (fun q => x.cell (J q.1) q.2.1 q.2.2) (fun q => f q.1) (fun q => g q.1)
    (fun q => a (I q.1) q.2.1 q.2.2) (fun q => a (J q.1) q.2.1 q.2.2) (fun q hq => ?_) (fun q hq => hf _ hq.1) (fun q hq => hg _ hq.1) (fun q hq => ha _ _ _ (hI _ hq.1).2 hq.2.1 hq.2.2)
    (fun q hq => ha _ _ _ (hJ _ hq.1).2 hq.2.1 hq.2.2) ?_ ?_ ?_ ?_).imp
    fun m' h => ⟨fun b j k hb hj hk => h.1 (b, j, k) ⟨hb, hj, hk⟩, fun p hp => h.2 p fun q hq => hp q.1 q.2.1 q.2.2 hq.1 hq.2.1 hq.2.2⟩
  · have hm := hcv.mem q hq
    exact givens_eq mi _ _ _ _ _ _ _ _ _ _ (hI _ hm.1).1 (hJ _ hm.1).1 (by rw [RV3.cell]; push_cast; ring) (by rw [RV3.cell]; push_cast; ring)
  · rintro ⟨b, j, k⟩ ⟨b', j', k'⟩ ⟨hb, hj, hk⟩ ⟨hb', hj', hk'⟩ e
    obtain ⟨e1, e2, e3⟩ := inj _ _ _ _ _ _ (hI _ hb).2 hj hk (hI _ hb').2 hj' hk' e
    exact Prod.ext ((hd _ _ hb hb').1 e1) (Prod.ext e2 e3)
  · rintro ⟨b, j, k⟩ ⟨b', j', k'⟩ ⟨hb, hj, hk⟩ ⟨hb', hj', hk'⟩ e
    obtain ⟨e1, e2, e3⟩ := inj _ _ _ _ _ _ (hJ _ hb).2 hj hk (hJ _ hb').2 hj' hk' e
    exact Prod.ext ((hd _ _ hb hb').2.1 e1) (Prod.ext e2 e3)
  · rintro ⟨b, j, k⟩ ⟨b', j', k'⟩ ⟨hb, hj, hk⟩ ⟨hb', hj', hk'⟩ e
    exact (hd _ _ hb hb').2.2 (inj _ _ _ _ _ _ (hI _ hb).2 hj hk (hJ _ hb').2 hj' hk' e).1
  · rintro ⟨b, j, k⟩ ⟨b', j', k'⟩ ⟨hb, hj, hk⟩ ⟨hb', hj', hk'⟩
    dsimp only at *
    exact ⟨fun e => hc (b * 2) _ _ _ (by omega) (hI _ hb').2 hj' hk' e.symm, fun e => hc (b * 2) _ _ _ (by omega) (hJ _ hb').2 hj' hk' e.symm,
      fun e => hc (b * 2 + 1) _ _ _ (by omega) (hI _ hb').2 hj' hk' e.symm, fun e => hc (b * 2 + 1) _ _ _ (by omega) (hJ _ hb').2 hj' hk' e.symm⟩

/-- Rows 0 and 2, 1 and 4 of a 5 x 3 matrix. -/
example : (∀ b b' : Nat, b < 2 → b' < 2 → ((if b = 0 then 0 else 1) = (if b' = 0 then 0 else 1) → b = b') ∧ ((if b = 0 then 2 else 4) = (if b' = 0 then 2 else 4) → b = b') ∧
    (if b = 0 then 0 else 1) ≠ (if b' = 0 then 2 else 4)) ∧
    (∀ i j i' j', i < 5 → j < 3 → i' < 5 → j' < 3 → (⟨0, 5, 3, 3, 1⟩ : RV2).cell i j = (⟨0, 5, 3, 3, 1⟩ : RV2).cell i' j' → i = i' ∧ j = j') ∧
    ∀ b i j, b < 4 → i < 5 → j < 3 → (⟨0, 5, 3, 3, 1⟩ : RV2).cell i j ≠ 15 + b := by
  refine ⟨fun b b' hb hb' => ?_, fun i j i' j' _ _ _ _ e => ?_, fun b i j _ _ _ => ?_⟩
  · rcases (show b = 0 ∨ b = 1 by omega) with rfl | rfl <;> rcases (show b' = 0 ∨ b' = 1 by omega) with rfl | rfl <;> decide
  · simp only [RV2.cell] at e; omega
  · simp only [RV2.cell]; omega

/-- With larger slices not: rotating one pair of slices of a compact tensor, the entries of the second row are never touched, in no order of the threads. -/
theorem C418_large_fails [Add α] [Sub α] [Mul α] (mi : Buf Int) (x : RV3) (ix c : Nat) (I J : Nat) (m m' : Buf α) (hr : x.isRegular = true) (h1 : 1024 < x.n1 * x.n2) (h2 : x.n1 ≤ 1024 ∨ x.n2 ≤ 1024)
    (h3 : x.n2 % 32 < x.n1 % 32) (hn : 2 ≤ x.n1) (hI : mi ix = some (I : Int)) (hJ : mi (ix + 1) = some (J : Int)) (ho : Out (givens3 mi x 1 ix c) m (.ok m')) :
    ∀ i k, k < x.n2 → m' (x.cell i 1 k) = m (x.cell i 1 k) := by
  simp only [RV3.isRegular, Bool.and_eq_true, decide_eq_true_eq] at hr
  obtain ⟨⟨s2, s1⟩, s0⟩ := hr
  rw [givens3, if_neg (by omega), if_pos h2, if_pos h3] at ho
  intro i k hk
  refine out_frame (fun q => q ≠ x.cell i 1 k) _ (fun l hl q hq => ?_) m m' ho _ fun h => h rfl
  rw [List.mem_singleton.1 hl] at hq ⊢
  obtain ⟨⟨bx, by', bz⟩, ⟨tx, ty, tz⟩⟩ := q
  obtain ⟨⟨a1, a2, a3⟩, a4, a5, a6⟩ := mem_ids'.1 hq
  dsimp only at a1 a4
  have hb : bx = 0 := by omega
  subst hb
  have key : ∀ A : Nat, x.cell A 0 tx ≠ x.cell i 1 k := fun A e => by
    rw [RV3.cell, RV3.cell, s2, s1] at e
    have e : x.s0 * A + tx = x.s0 * i + (x.n2 + k) := by omega
    have hs : x.n2 + x.n2 ≤ x.s0 := by
      rw [s0, s1]
      calc x.n2 + x.n2 = 2 * x.n2 := by ring
        _ ≤ x.n1 * x.n2 := Nat.mul_le_mul_right _ hn
    have g1 : (x.s0 * A + tx) % x.s0 = tx := by rw [Nat.mul_add_mod, Nat.mod_eq_of_lt (by omega)]
    have g2 : (x.s0 * i + (x.n2 + k)) % x.s0 = x.n2 + k := by rw [Nat.mul_add_mod, Nat.mod_eq_of_lt (by omega)]
    rw [e, g2] at g1
    omega
  have e := givens_eq (α := α) mi x.arr x.s0 ix c 0 (0 * x.s1 + tx * x.s2) (x.cell I 0 tx) (x.cell J 0 tx) (I : Int) (J : Int) hI hJ (by rw [RV3.cell]; push_cast; ring) (by rw [RV3.cell]; push_cast; ring)
  have e' : kGivensBT (α := α) mi x.arr x.s0 x.s1 x.s2 ix c ⟨0, by', bz⟩ ⟨tx, ty, tz⟩ = turn (c + 0 * 2) (c + (0 * 2 + 1)) (x.cell I 0 tx) (x.cell J 0 tx) := e
  dsimp only
  rw [e']
  exact turn_within _ _ _ _ _ _ trivial trivial (key I) (key J)

example : (⟨0, 2, 33, 32, 1056, 32, 1⟩ : RV3).isRegular = true ∧ 1024 < 33 * 32 ∧ 32 % 32 < 33 % 32 := by decide

/-! ### C419: ReLU -/

theorem relu_core [Mul α] (r x : RV1) (m : Buf α) (D : Nat → Prop) (a b : Nat → α) (val : Nat → α) (hD : ∀ i, D i ↔ i < r.n0) (k : Nat → Nat → D3 → D3 → Thr α Unit) (S : Nat → Nat → Prop)
    (hone : ∀ i, i < r.n0 → ∀ off B T, off + (B * 32 + T) = i → One m (k off off ⟨B, 0, 0⟩ ⟨T, 0, 0⟩) (r.arr + i) (val i) (S i)) (hn : r.n0 ≤ 2147483647)
    (hS : ∀ i j, i < r.n0 → j < r.n0 → i ≠ j → ¬ S j (r.arr + i)) :
    Ends ((if 32 ≤ r.n0 then [⟨⟨r.n0 / 32, 1, 1⟩, ⟨32, 1, 1⟩, k 0 0⟩] else []) ++ (if 0 < r.n0 % 32 then [⟨⟨1, 1, 1⟩, ⟨r.n0 % 32, 1, 1⟩, k (r.n0 / 32 * 32) (r.n0 / 32 * 32)⟩] else [])) m
      fun m' => Upd m m' (fun i => i < r.n0) (fun i => r.arr + i) val := by
  have c1 : ∀ N, N = r.n0 / 32 * 32 → Covers (⟨⟨r.n0 / 32, 1, 1⟩, ⟨32, 1, 1⟩, k 0 0⟩ : Launch α) (fun i => i < N) fun q => q.1.x * 32 + q.2.x := by
    intro N hN
    refine covers_box _ _ _ _ _ (fun i => (⟨i / 32, 0, 0⟩, ⟨i % 32, 0, 0⟩)) ?_ ?_ ?_ ?_ ?_ ?_ ?_ ?_
    all_goals box
  have c2 : Covers (⟨⟨1, 1, 1⟩, ⟨r.n0 % 32, 1, 1⟩, k (r.n0 / 32 * 32) (r.n0 / 32 * 32)⟩ : Launch α) (fun i => r.n0 / 32 * 32 ≤ i ∧ i < r.n0) fun q => r.n0 / 32 * 32 + q.2.x := by
    refine covers_box _ _ _ _ _ (fun i => (⟨0, 0, 0⟩, ⟨i - r.n0 / 32 * 32, 0, 0⟩)) ?_ ?_ ?_ ?_ ?_ ?_ ?_ ?_
    all_goals box
  have inj : ∀ i j, i < r.n0 → j < r.n0 → r.arr + i = r.arr + j → i = j := fun i j _ _ e => by omega
  have o1 : ∀ q ∈ (⟨⟨r.n0 / 32, 1, 1⟩, ⟨32, 1, 1⟩, k 0 0⟩ : Launch α).ids, One m (k 0 0 q.1 q.2) (r.arr + (q.1.x * 32 + q.2.x)) (val (q.1.x * 32 + q.2.x)) (S (q.1.x * 32 + q.2.x)) := by
    rintro ⟨⟨bx, by', bz⟩, ⟨tx, ty, tz⟩⟩ hq
    obtain ⟨⟨a1, a2, a3⟩, a4, a5, a6⟩ := mem_ids'.1 hq
    dsimp only at *
    obtain rfl : by' = 0 := by omega
    obtain rfl : bz = 0 := by omega
    obtain rfl : ty = 0 := by omega
    obtain rfl : tz = 0 := by omega
    exact hone _ (by omega) 0 bx tx (by omega)
  have o2 : ∀ q ∈ (⟨⟨1, 1, 1⟩, ⟨r.n0 % 32, 1, 1⟩, k (r.n0 / 32 * 32) (r.n0 / 32 * 32)⟩ : Launch α).ids,
      One m (k (r.n0 / 32 * 32) (r.n0 / 32 * 32) q.1 q.2) (r.arr + (r.n0 / 32 * 32 + q.2.x)) (val (r.n0 / 32 * 32 + q.2.x)) (S (r.n0 / 32 * 32 + q.2.x)) := by
    rintro ⟨⟨bx, by', bz⟩, ⟨tx, ty, tz⟩⟩ hq
    obtain ⟨⟨a1, a2, a3⟩, a4, a5, a6⟩ := mem_ids'.1 hq
    dsimp only at *
    obtain rfl : bx = 0 := by omega
    obtain rfl : by' = 0 := by omega
    obtain rfl : bz = 0 := by omega
    obtain rfl : ty = 0 := by omega
    obtain rfl : tz = 0 := by omega
    exact hone _ (by omega) _ 0 tx (by omega)
  split
  · split
    · exact Ends.cells2 (fun i => i < r.n0 / 32 * 32) _ _ _ _ S _ _ (c1 _ rfl) c2 (fun i _ _ => by omega) (fun i => by omega) o1 o2 inj hS
    · exact Ends.covers (c1 _ (by omega)) o1 inj hS
  · split
    · have c2' : Covers (⟨⟨1, 1, 1⟩, ⟨r.n0 % 32, 1, 1⟩, k (r.n0 / 32 * 32) (r.n0 / 32 * 32)⟩ : Launch α) (fun i => i < r.n0) fun q => r.n0 / 32 * 32 + q.2.x :=
        ⟨fun ⟨i, hi⟩ => c2.valid ⟨i, by omega⟩, fun q hq => (c2.mem q hq).2, c2.inj, fun i hi => c2.surj i ⟨by omega, hi⟩⟩
      exact Ends.covers c2' o2 inj hS
    · exact Ends.nil ⟨fun i hi => by omega, fun _ _ => rfl⟩

/-- What `add_ReLU` does on the GPU: it gives every entry of the target the ReLU of that of the source (and does not add it). -/
theorem C419_relu_partial [Mul α] (pos : α → Bool) (r x : RV1) (alpha : α) (m : Buf α) (a b : Nat → α) (hr : r.s0 = 1) (hx : x.s0 = 1) (he : r.n0 = x.n0) (hn : r.n0 ≤ 2147483647)
    (ha : ∀ i, i < r.n0 → m (r.arr + i) = some (a i)) (hb : ∀ i, i < r.n0 → m (x.arr + i) = some (b i)) (hap : ∀ i j, i < r.n0 → j < r.n0 → r.arr + i = x.arr + j → i = j) :
    ∃ ls, addReLU pos r x alpha = .ok ls ∧ Ends ls m fun m' => Upd m m' (fun i => i < r.n0) (fun i => r.arr + i) fun i => if pos (b i) then b i else alpha * b i := by
  rw [addReLU, decide_eq_true hr, Res.assrt_true, Res.ok_bind, decide_eq_true hx, Res.assrt_true, Res.ok_bind, decide_eq_true he, Res.assrt_true, Res.ok_bind]
  refine ⟨_, rfl, relu_core r x m (fun i => i < r.n0) a b _ (fun _ => Iff.rfl) (fun o _ => kReLU pos (r.arr + o) (x.arr + o) alpha) (fun i p => p = x.arr + i ∧ p ≠ r.arr + i) ?_ hn ?_⟩
  · rintro i hi off B T rfl
    have e1 : r.arr + off + (B * 32 + T) = r.arr + (off + (B * 32 + T)) := by omega
    have e2 : x.arr + off + (B * 32 + T) = x.arr + (off + (B * 32 + T)) := by omega
    dsimp only [kReLU]
    rw [e1, e2]
    refine ⟨(Within.rd ?_).bind fun v => ?_, ?_⟩
    · by_cases e : x.arr + (off + (B * 32 + T)) = r.arr + (off + (B * 32 + T))
      · exact .inr e
      · exact .inl ⟨rfl, e⟩
    · split
      · exact Within.wr rfl
      · exact Within.wr rfl
    · rw [Thr.run_bind, Thr.run_rd (hb _ hi), Res.ok_bind]
      split
      · exact Thr.run_wr _ (ha _ hi)
      · exact Thr.run_wr _ (ha _ hi)
  · exact fun i j hi hj hne h => hne (hap i j hi hj h.1)

/-- The gradient likewise. -/
theorem C419_back_partial [Mul α] (pos : α → Bool) (r g x : RV1) (alpha : α) (m : Buf α) (a b d : Nat → α) (hr : r.s0 = 1) (hx : x.s0 = 1) (hg : g.s0 = 1) (he : r.n0 = x.n0) (hge : g.n0 = x.n0)
    (hn : r.n0 ≤ 2147483647) (ha : ∀ i, i < r.n0 → m (r.arr + i) = some (a i)) (hb : ∀ i, i < r.n0 → m (x.arr + i) = some (b i)) (hd : ∀ i, i < r.n0 → m (g.arr + i) = some (d i))
    (hap : ∀ i j, i < r.n0 → j < r.n0 → r.arr + i = x.arr + j → i = j) (hag : ∀ i j, i < r.n0 → j < r.n0 → r.arr + i = g.arr + j → i = j) :
    ∃ ls, addReLUBack pos r g x alpha = .ok ls ∧ Ends ls m fun m' => Upd m m' (fun i => i < r.n0) (fun i => r.arr + i) fun i => if pos (b i) then d i else alpha * d i := by
  rw [addReLUBack, decide_eq_true hr, Res.assrt_true, Res.ok_bind, decide_eq_true hx, Res.assrt_true, Res.ok_bind, decide_eq_true hg, Res.assrt_true, Res.ok_bind,
    decide_eq_true he, Res.assrt_true, Res.ok_bind, decide_eq_true hge, Res.assrt_true, Res.ok_bind]
  refine ⟨_, rfl, relu_core r x m (fun i => i < r.n0) a b _ (fun _ => Iff.rfl) (fun o _ => kReLUBack pos (r.arr + o) (g.arr + o) (x.arr + o) alpha)
    (fun i p => (p = x.arr + i ∨ p = g.arr + i) ∧ p ≠ r.arr + i) ?_ hn ?_⟩
  · rintro i hi off B T rfl
    have e1 : r.arr + off + (B * 32 + T) = r.arr + (off + (B * 32 + T)) := by omega
    have e2 : x.arr + off + (B * 32 + T) = x.arr + (off + (B * 32 + T)) := by omega
    have e3 : g.arr + off + (B * 32 + T) = g.arr + (off + (B * 32 + T)) := by omega
    dsimp only [kReLUBack]
    rw [e1, e2, e3]
    refine ⟨(Within.rd ?_).bind fun v => (Within.rd ?_).bind fun w => ?_, ?_⟩
    · by_cases e : g.arr + (off + (B * 32 + T)) = r.arr + (off + (B * 32 + T))
      · exact .inr e
      · exact .inl ⟨.inr rfl, e⟩
    · by_cases e : x.arr + (off + (B * 32 + T)) = r.arr + (off + (B * 32 + T))
      · exact .inr e
      · exact .inl ⟨.inl rfl, e⟩
    · split
      · exact Within.wr rfl
      · exact Within.wr rfl
    · rw [Thr.run_bind, Thr.run_rd (hd _ hi), Res.ok_bind, Thr.run_bind, Thr.run_rd (hb _ hi), Res.ok_bind]
      split
      · exact Thr.run_wr _ (ha _ hi)
      · exact Thr.run_wr _ (ha _ hi)
  · exact fun i j hi hj hne h => hne (h.1.elim (hap i j hi hj) (hag i j hi hj))

example : ∀ i j, i < 100 → j < 100 → (0 : Nat) + i = 100 + j → i = j := fun i j _ _ e => by omega

/-- So 3 added to 5 gives 3. -/
theorem C419_add_fails (m : Buf Int) (h0 : m 0 = some 5) (h1 : m 1 = some 3) : ∃ ls, addReLU (fun v : Int => decide (0 < v)) ⟨0, 1, 1⟩ ⟨1, 1, 1⟩ 0 = .ok ls ∧ Ends ls m fun m' => m' 0 = some 3 ∧ (3 : Int) ≠ 5 + 3 := by
  obtain ⟨ls, e, h⟩ := C419_relu_partial (fun v : Int => decide (0 < v)) ⟨0, 1, 1⟩ ⟨1, 1, 1⟩ 0 m (fun _ => 5) (fun _ => 3) rfl rfl rfl (by decide)
    (fun i hi => by obtain rfl : i = 0 := by (dsimp only at hi; omega)
                    exact h0) (fun i hi => by obtain rfl : i = 0 := by (dsimp only at hi; omega)
                                              exact h1) (fun i j hi hj e => by dsimp only at *; omega)
  exact ⟨ls, e, h.imp fun m' hu => ⟨hu.1 0 (by decide), by decide⟩⟩

end Cnine
