import Verif.Props.GpuSlices
import Verif.Model.GpuT

/-!
# What the kernels of `TensorView` do
-/

namespace Cnine

open Gpu

variable {α ι : Type}

/-- The value a statement gives the cell. -/
def Gpu.Op.val [Add α] (k : Op α) (a b : α) : α :=
  match k with
  | .assign => b
  | .add => a + b
  | .inc c => a + c

theorem Gpu.Op.one [Add α] (k : Op α) {m : Buf α} {r x : Nat} {a b : α} (hr : m r = some a) (hx : m x = some b) : One m (k.thr r x) r (k.val a b) fun p => p = x ∧ p ≠ r := by
  have hw : (fun p => p = x ∧ p ≠ r) x ∨ (fun p => p = r) x := by
    by_cases e : x = r
    · exact .inr e
    · exact .inl ⟨rfl, e⟩
  cases k
  · refine ⟨(Within.rd hw).bind fun v => Within.wr rfl, ?_⟩
    rw [Op.thr, Thr.run_bind, Thr.run_rd hx, Res.ok_bind]
    exact Thr.run_wr _ hr
  · refine ⟨(Within.rd hw).bind fun v => Within.inc rfl, ?_⟩
    rw [Op.thr, Thr.run_bind, Thr.run_rd hx, Res.ok_bind]
    exact Thr.run_inc _ hr
  · exact ⟨Within.inc (W := fun p => p = r) rfl, Thr.run_inc _ hr⟩

theorem op_ends [Add α] (k : Op α) {l : Launch α} {m : Buf α} {D : ι → Prop} {rc xc : ι → Nat} {a b : ι → α} {idx : D3 × D3 → ι} (h : Meets m D rc xc a b) (hc : Covers l D idx)
    (hk : ∀ q ∈ l.ids, l.kern q.1 q.2 = k.thr (rc (idx q)) (xc (idx q))) : Ends [l] m fun m' => Upd m m' D rc fun i => k.val (a i) (b i) :=
  Ends.covers (S := fun i p => p = xc i ∧ p ≠ rc i) hc (fun q hq => by
    rw [hk q hq]
    exact k.one (h.rval _ (hc.mem q hq)) (h.xval _ (hc.mem q hq))) h.inj fun i j hi hj hne e => hne (h.apart i j hi hj e.1)

theorem op_within [Add α] (k : Op α) (r x : Nat) (W : Nat → Prop) (h : W r) : Within (fun _ => True) W (k.thr r x) := by
  cases k
  · exact (Within.rd (.inl trivial)).bind fun v => Within.wr h
  · exact (Within.rd (.inl trivial)).bind fun v => Within.inc h
  · exact Within.inc h

/-- A view meets itself. -/
theorem Gpu.Meets.self {m : Buf α} {D : ι → Prop} {rc : ι → Nat} {a : ι → α} (inj : ∀ i j, D i → D j → rc i = rc j → i = j) (h : ∀ i, D i → m (rc i) = some (a i)) : Meets m D rc rc a a := ⟨inj, inj, h, h⟩

/-! ### C422, C423: one axis -/

theorem tv1_core [Add α] (k : Op α) (r x : RV1) (m : Buf α) (a b : Nat → α) (h0 : r.n0 ≤ 2147483647) (hs : r.n0 < 1024 ∨ (1024 < r.n0 ∧ r.n0 % 1024 = 0))
    (h : Meets m (fun i => i < r.n0) r.cell x.cell a b) : Ends (tv1 k r x) m fun m' => Upd m m' (fun i => i < r.n0) r.cell fun i => k.val (a i) (b i) := by
  rw [tv1]
  rcases hs with hs | hs
  · rw [if_neg (by omega)]
    split
    · refine op_ends k (idx := fun q => q.2.x) h (covers_box _ _ _ _ _ (fun i => (⟨0, 0, 0⟩, ⟨i, 0, 0⟩)) ?_ ?_ ?_ ?_ ?_ ?_ ?_ ?_) fun q _ => ?_
      all_goals try box
      dsimp only [jT, RV1.cell]; congr 2 <;> ring
    · exact Ends.nil ⟨fun i hi => absurd hi (by omega), fun _ _ => rfl⟩
  · rw [if_pos hs.1, if_neg (by omega)]
    refine op_ends k (idx := fun q => q.1.x * 1024 + q.2.x) h (covers_box _ _ _ _ _ (fun i => (⟨i / 1024, 0, 0⟩, ⟨i % 1024, 0, 0⟩)) ?_ ?_ ?_ ?_ ?_ ?_ ?_ ?_) fun q _ => ?_
    all_goals try box
    dsimp only [jBT, RV1.cell]; congr 2 <;> ring

/-- Assigning a view with one axis on the GPU, if it has fewer than 1024 entries, or more and a multiple of 1024. -/
theorem C422_assign [Add α] (r x : RV1) (m : Buf α) (a b : Nat → α) (h0 : r.n0 ≤ 2147483647) (hs : r.n0 < 1024 ∨ (1024 < r.n0 ∧ r.n0 % 1024 = 0))
    (h : Meets m (fun i => i < r.n0) r.cell x.cell a b) : Ends (tv1 .assign r x) m fun m' => Upd m m' (fun i => i < r.n0) r.cell b := tv1_core .assign r x m a b h0 hs h

/-- Adding. -/
theorem C422_add [Add α] (r x : RV1) (m : Buf α) (a b : Nat → α) (h0 : r.n0 ≤ 2147483647) (hs : r.n0 < 1024 ∨ (1024 < r.n0 ∧ r.n0 % 1024 = 0))
    (h : Meets m (fun i => i < r.n0) r.cell x.cell a b) : Ends (tv1 .add r x) m fun m' => Upd m m' (fun i => i < r.n0) r.cell fun i => a i + b i := tv1_core .add r x m a b h0 hs h

/-- Adding a number. -/
theorem C422_inc [Add α] (r : RV1) (c : α) (m : Buf α) (a : Nat → α) (h0 : r.n0 ≤ 2147483647) (hs : r.n0 < 1024 ∨ (1024 < r.n0 ∧ r.n0 % 1024 = 0))
    (inj : ∀ i j, i < r.n0 → j < r.n0 → r.cell i = r.cell j → i = j) (h : ∀ i, i < r.n0 → m (r.cell i) = some (a i)) :
    Ends (tv1 (.inc c) r r) m fun m' => Upd m m' (fun i => i < r.n0) r.cell fun i => a i + c := tv1_core (.inc c) r r m a a h0 hs (Meets.self inj h)

example : Meets (fun p => some (p : Int)) (fun i => i < 3072) (⟨0, 3072, 2⟩ : RV1).cell (⟨1, 3072, 2⟩ : RV1).cell (fun i => (2 * i : Nat)) (fun i => (1 + 2 * i : Nat)) := by
  refine ⟨fun i j hi hj e => ?_, fun i j hi hj e => ?_, fun i _ => ?_, fun i _ => ?_⟩ <;> simp only [RV1.cell, Option.some.injEq] at * <;> (try push_cast) <;> omega

/-- With exactly 1024 entries nothing is launched. -/
theorem C423_block_fails [Add α] (k : Op α) (r x : RV1) (h : r.n0 = 1024) : tv1 k r x = [] := by
  rw [tv1, h]
  rfl

/-- With more, not a multiple of 1024, the entries after the last multiple are left as they are. -/
theorem C423_tail_fails [Add α] (k : Op α) (r x : RV1) (m m' : Buf α) (h : 1024 < r.n0) (hs : 0 < r.s0) (ho : Out (tv1 k r x) m (.ok m')) (i : Nat) (hi : r.n0 / 1024 * 1024 ≤ i) (_hn : i < r.n0) :
    m' (r.cell i) = m (r.cell i) := by
  have key : ∀ j, j < i → r.cell j ≠ r.cell i := fun j hj e => by
    rw [RV1.cell, RV1.cell] at e
    have : r.s0 * j < r.s0 * i := Nat.mul_lt_mul_of_pos_left hj hs
    omega
  refine out_frame (fun q => q ≠ r.cell i) _ (fun l hl q hq => ?_) m m' ho _ fun h => h rfl
  rw [tv1, if_pos h] at hl
  obtain ⟨⟨bx, by', bz⟩, ⟨tx, ty, tz⟩⟩ := q
  obtain ⟨⟨a1, a2, a3⟩, a4, a5, a6⟩ := mem_ids'.1 hq
  rcases List.mem_append.1 hl with hl | hl
  · rw [List.mem_singleton.1 hl] at a1 a4 ⊢
    dsimp only at a1 a4 ⊢
    have e : jBT k r.arr x.arr (1024 * r.s0) r.s0 (1024 * x.s0) x.s0 ⟨bx, by', bz⟩ ⟨tx, ty, tz⟩ = k.thr (r.cell (bx * 1024 + tx)) (x.cell (bx * 1024 + tx)) := by
      dsimp only [jBT, RV1.cell]; congr 2 <;> ring
    rw [e]
    exact op_within _ _ _ _ (key _ (by omega))
  · split at hl
    · rw [List.mem_singleton.1 hl] at a1 a4 ⊢
      dsimp only at a1 a4 ⊢
      have e : jT k r.arr x.arr r.s0 x.s0 ⟨bx, by', bz⟩ ⟨tx, ty, tz⟩ = k.thr (r.cell tx) (x.cell tx) := by
        dsimp only [jT, RV1.cell]; congr 2 <;> ring
      rw [e]
      exact op_within _ _ _ _ (key _ (by omega))
    · cases hl

example : 1024 < (⟨0, 1500, 1⟩ : RV1).n0 ∧ (⟨0, 1500, 1⟩ : RV1).n0 / 1024 * 1024 ≤ 1400 := by decide

/-! ### C424, C425: two axes -/

theorem tv2_core [Add α] (k : Op α) (r x : RV2) (m : Buf α) (a b : Nat × Nat → α) (h0 : r.n0 ≤ 2147483647) (hs : r.n1 ≤ 1024 ∨ (r.n1 % 1024 = 0 ∧ r.n1 < 65536 * 1024))
    (h : Meets m (box2 r.n0 r.n1) (fun q => r.cell q.1 q.2) (fun q => x.cell q.1 q.2) a b) :
    Ends (tv2 k r x) m fun m' => Upd m m' (box2 r.n0 r.n1) (fun q => r.cell q.1 q.2) fun q => k.val (a q) (b q) := by
  rw [tv2]
  split
  · refine op_ends k (idx := fun q => (q.2.x, q.2.y)) h (covers_box _ _ _ _ _ (fun i => (⟨0, 0, 0⟩, ⟨i.1, i.2, 0⟩)) ?_ ?_ ?_ ?_ ?_ ?_ ?_ ?_) fun q _ => ?_
    all_goals try box
    dsimp only [jTT, RV2.cell]; congr 2 <;> ring
  · split
    · refine op_ends k (idx := fun q => (q.1.x, q.2.x)) h (covers_box _ _ _ _ _ (fun i => (⟨i.1, 0, 0⟩, ⟨i.2, 0, 0⟩)) ?_ ?_ ?_ ?_ ?_ ?_ ?_ ?_) fun q _ => ?_
      all_goals try box
      dsimp only [jBT, RV2.cell]; congr 2 <;> ring
    · rw [if_neg (by omega)]
      refine op_ends k (idx := fun q => (q.1.x, q.1.y * 1024 + q.2.x)) h (covers_box _ _ _ _ _ (fun i => (⟨i.1, i.2 / 1024, 0⟩, ⟨i.2 % 1024, 0, 0⟩)) ?_ ?_ ?_ ?_ ?_ ?_ ?_ ?_) fun q _ => ?_
      all_goals try box
      dsimp only [jBBT, RV2.cell]; congr 2 <;> ring

/-- Assigning a view with two axes on the GPU, if it has at most 1024 columns or a multiple of 1024. -/
theorem C424_assign [Add α] (r x : RV2) (m : Buf α) (a b : Nat × Nat → α) (h0 : r.n0 ≤ 2147483647) (hs : r.n1 ≤ 1024 ∨ (r.n1 % 1024 = 0 ∧ r.n1 < 65536 * 1024))
    (h : Meets m (fun q : Nat × Nat => q.1 < r.n0 ∧ q.2 < r.n1) (fun q => r.cell q.1 q.2) (fun q => x.cell q.1 q.2) a b) :
    Ends (tv2 .assign r x) m fun m' => Upd m m' (fun q : Nat × Nat => q.1 < r.n0 ∧ q.2 < r.n1) (fun q => r.cell q.1 q.2) b := tv2_core .assign r x m a b h0 hs h

/-- Adding. -/
theorem C424_add [Add α] (r x : RV2) (m : Buf α) (a b : Nat × Nat → α) (h0 : r.n0 ≤ 2147483647) (hs : r.n1 ≤ 1024 ∨ (r.n1 % 1024 = 0 ∧ r.n1 < 65536 * 1024))
    (h : Meets m (fun q : Nat × Nat => q.1 < r.n0 ∧ q.2 < r.n1) (fun q => r.cell q.1 q.2) (fun q => x.cell q.1 q.2) a b) :
    Ends (tv2 .add r x) m fun m' => Upd m m' (fun q : Nat × Nat => q.1 < r.n0 ∧ q.2 < r.n1) (fun q => r.cell q.1 q.2) fun q => a q + b q := tv2_core .add r x m a b h0 hs h

/-- Adding a number. -/
theorem C424_inc [Add α] (r : RV2) (c : α) (m : Buf α) (a : Nat × Nat → α) (h0 : r.n0 ≤ 2147483647) (hs : r.n1 ≤ 1024 ∨ (r.n1 % 1024 = 0 ∧ r.n1 < 65536 * 1024))
    (inj : ∀ q q' : Nat × Nat, (q.1 < r.n0 ∧ q.2 < r.n1) → (q'.1 < r.n0 ∧ q'.2 < r.n1) → r.cell q.1 q.2 = r.cell q'.1 q'.2 → q = q') (h : ∀ q : Nat × Nat, (q.1 < r.n0 ∧ q.2 < r.n1) → m (r.cell q.1 q.2) = some (a q)) :
    Ends (tv2 (.inc c) r r) m fun m' => Upd m m' (fun q : Nat × Nat => q.1 < r.n0 ∧ q.2 < r.n1) (fun q => r.cell q.1 q.2) fun q => a q + c := tv2_core (.inc c) r r m a a h0 hs (Meets.self inj h)

/-- A compact matrix and a transposed one. -/
example : Meets (fun p => some (p : Int)) (fun q : Nat × Nat => q.1 < 40 ∧ q.2 < 30) (fun q => (⟨0, 40, 30, 30, 1⟩ : RV2).cell q.1 q.2) (fun q => (⟨1200, 40, 30, 1, 40⟩ : RV2).cell q.1 q.2)
    (fun q => (30 * q.1 + q.2 : Nat)) (fun q => (1200 + q.1 + 40 * q.2 : Nat)) := by
  refine ⟨?_, ?_, ?_, ?_⟩
  · rintro ⟨i, j⟩ ⟨i', j'⟩ h h' e
    simp only [RV2.cell] at h h' e
    simp only [Prod.mk.injEq]
    omega
  · rintro ⟨i, j⟩ ⟨i', j'⟩ h h' e
    simp only [RV2.cell] at h h' e
    omega
  · rintro ⟨i, j⟩ h
    simp only [RV2.cell, Option.some.injEq]
    push_cast
    ring
  · rintro ⟨i, j⟩ h
    simp only [RV2.cell, Option.some.injEq]
    push_cast
    ring

/-- With more columns, not a multiple of 1024, those after the last multiple are left as they are. -/
theorem C425_tail_fails [Add α] (k : Op α) (r x : RV2) (m m' : Buf α) (h : 1024 < r.n1) (inj : ∀ i j i' j', i < r.n0 → j < r.n1 → i' < r.n0 → j' < r.n1 → r.cell i j = r.cell i' j' → i = i' ∧ j = j')
    (ho : Out (tv2 k r x) m (.ok m')) (i j : Nat) (hi : i < r.n0) (hj : r.n1 / 1024 * 1024 ≤ j) (hn : j < r.n1) : m' (r.cell i j) = m (r.cell i j) := by
  have key : ∀ i' j', i' < r.n0 → j' < r.n1 / 1024 * 1024 → r.cell i' j' ≠ r.cell i j := fun i' j' hi' hj' e => by
    have := (inj _ _ _ _ hi' (by omega) hi hn e).2
    omega
  have hb : ¬ r.n0 * r.n1 < 128 := by
    have := Nat.mul_le_mul (show 1 ≤ r.n0 by omega) (Nat.le_refl r.n1)
    omega
  refine out_frame (fun q => q ≠ r.cell i j) _ (fun l hl q hq => ?_) m m' ho _ fun h => h rfl
  rw [tv2, if_neg hb, if_neg (by omega)] at hl
  obtain ⟨⟨bx, by', bz⟩, ⟨tx, ty, tz⟩⟩ := q
  obtain ⟨⟨a1, a2, a3⟩, a4, a5, a6⟩ := mem_ids'.1 hq
  rcases List.mem_cons.1 hl with hl | hl
  · rw [hl] at a1 a2 a4 ⊢
    dsimp only at a1 a2 a4 ⊢
    have e : jBBT k r.arr x.arr r.s0 (1024 * r.s1) r.s1 x.s0 (1024 * x.s1) x.s1 ⟨bx, by', bz⟩ ⟨tx, ty, tz⟩ = k.thr (r.cell bx (by' * 1024 + tx)) (x.cell bx (by' * 1024 + tx)) := by
      dsimp only [jBBT, RV2.cell]; congr 2 <;> ring
    rw [e]
    exact op_within _ _ _ _ (key _ _ a1 (by omega))
  · split at hl
    · rw [List.mem_singleton.1 hl] at a1 a4 ⊢
      dsimp only at a1 a4 ⊢
      have e : jBT k r.arr x.arr r.s0 r.s1 x.s0 x.s1 ⟨bx, by', bz⟩ ⟨tx, ty, tz⟩ = k.thr (r.cell bx tx) (x.cell bx tx) := by
        dsimp only [jBT, RV2.cell]; congr 2 <;> ring
      rw [e]
      exact op_within _ _ _ _ (key _ _ a1 (by omega))
    · cases hl

/-- A compact matrix of 3 x 1500 entries. -/
example : ∀ i j i' j', i < 3 → j < 1500 → i' < 3 → j' < 1500 → (⟨0, 3, 1500, 1500, 1⟩ : RV2).cell i j = (⟨0, 3, 1500, 1500, 1⟩ : RV2).cell i' j' → i = i' ∧ j = j' := by
  intro i j i' j' _ _ _ _ e
  simp only [RV2.cell] at e
  omega

/-! ### C426, C427: three axes -/

theorem tv3_core [Add α] (k : Op α) (r x : RV3) (m : Buf α) (a b : Nat × Nat × Nat → α) (h0 : r.n0 ≤ 2147483647) (h1 : r.n1 ≤ 65535) (hz : r.n0 * r.n1 * r.n2 < 128 → r.n2 ≤ 64)
    (hs : r.n2 ≤ 1024 ∨ (r.n2 % 1024 = 0 ∧ r.n2 < 65536 * 1024)) (h : Meets m (box3 r.n0 r.n1 r.n2) (fun q => r.cell q.1 q.2.1 q.2.2) (fun q => x.cell q.1 q.2.1 q.2.2) a b) :
    Ends (tv3 k r x) m fun m' => Upd m m' (box3 r.n0 r.n1 r.n2) (fun q => r.cell q.1 q.2.1 q.2.2) fun q => k.val (a q) (b q) := by
  rw [tv3]
  split
  · refine op_ends k (idx := fun q => (q.2.x, q.2.y, q.2.z)) h (covers_box _ _ _ _ _ (fun i => (⟨0, 0, 0⟩, ⟨i.1, i.2.1, i.2.2⟩)) ?_ ?_ ?_ ?_ ?_ ?_ ?_ ?_) fun q _ => ?_
    all_goals try box
    dsimp only [jTTT, RV3.cell]; congr 2 <;> ring
  · split
    · refine op_ends k (idx := fun q => (q.1.x, q.2.x, q.2.y)) h (covers_box _ _ _ _ _ (fun i => (⟨i.1, 0, 0⟩, ⟨i.2.1, i.2.2, 0⟩)) ?_ ?_ ?_ ?_ ?_ ?_ ?_ ?_) fun q _ => ?_
      all_goals try box
      dsimp only [jBTT, RV3.cell]; congr 2 <;> ring
    · split
      · refine op_ends k (idx := fun q => (q.1.x, q.1.y, q.2.x)) h (covers_box _ _ _ _ _ (fun i => (⟨i.1, i.2.1, 0⟩, ⟨i.2.2, 0, 0⟩)) ?_ ?_ ?_ ?_ ?_ ?_ ?_ ?_) fun q _ => ?_
        all_goals try box
        dsimp only [jBBT, RV3.cell]; congr 2 <;> ring
      · rw [if_neg (by omega)]
        refine op_ends k (idx := fun q => (q.1.x, q.1.y, q.1.z * 1024 + q.2.x)) h
          (covers_box _ _ _ _ _ (fun i => (⟨i.1, i.2.1, i.2.2 / 1024⟩, ⟨i.2.2 % 1024, 0, 0⟩)) ?_ ?_ ?_ ?_ ?_ ?_ ?_ ?_) fun q _ => ?_
        all_goals try box
        · rintro ⟨i, j, l⟩ _
          simp only [Prod.mk.injEq, true_and]
          omega
        · dsimp only [jBBBT, RV3.cell]; congr 2 <;> ring

/-- Assigning a view with three axes on the GPU, if it has at most 1024 entries along the last axis or a multiple of 1024, at most 65535 along the middle one, and at most 64 along the
last one if it has fewer than 128 in all. -/
theorem C426_assign [Add α] (r x : RV3) (m : Buf α) (a b : Nat × Nat × Nat → α) (h0 : r.n0 ≤ 2147483647) (h1 : r.n1 ≤ 65535) (hz : r.n0 * r.n1 * r.n2 < 128 → r.n2 ≤ 64)
    (hs : r.n2 ≤ 1024 ∨ (r.n2 % 1024 = 0 ∧ r.n2 < 65536 * 1024))
    (h : Meets m (fun q : Nat × Nat × Nat => q.1 < r.n0 ∧ q.2.1 < r.n1 ∧ q.2.2 < r.n2) (fun q => r.cell q.1 q.2.1 q.2.2) (fun q => x.cell q.1 q.2.1 q.2.2) a b) :
    Ends (tv3 .assign r x) m fun m' => Upd m m' (fun q : Nat × Nat × Nat => q.1 < r.n0 ∧ q.2.1 < r.n1 ∧ q.2.2 < r.n2) (fun q => r.cell q.1 q.2.1 q.2.2) b := tv3_core .assign r x m a b h0 h1 hz hs h

/-- Adding. -/
theorem C426_add [Add α] (r x : RV3) (m : Buf α) (a b : Nat × Nat × Nat → α) (h0 : r.n0 ≤ 2147483647) (h1 : r.n1 ≤ 65535) (hz : r.n0 * r.n1 * r.n2 < 128 → r.n2 ≤ 64)
    (hs : r.n2 ≤ 1024 ∨ (r.n2 % 1024 = 0 ∧ r.n2 < 65536 * 1024))
    (h : Meets m (fun q : Nat × Nat × Nat => q.1 < r.n0 ∧ q.2.1 < r.n1 ∧ q.2.2 < r.n2) (fun q => r.cell q.1 q.2.1 q.2.2) (fun q => x.cell q.1 q.2.1 q.2.2) a b) :
    Ends (tv3 .add r x) m fun m' => Upd m m' (fun q : Nat × Nat × Nat => q.1 < r.n0 ∧ q.2.1 < r.n1 ∧ q.2.2 < r.n2) (fun q => r.cell q.1 q.2.1 q.2.2) fun q => a q + b q :=
  tv3_core .add r x m a b h0 h1 hz hs h

/-- Adding a number. -/
theorem C426_inc [Add α] (r : RV3) (c : α) (m : Buf α) (a : Nat × Nat × Nat → α) (h0 : r.n0 ≤ 2147483647) (h1 : r.n1 ≤ 65535) (hz : r.n0 * r.n1 * r.n2 < 128 → r.n2 ≤ 64)
    (hs : r.n2 ≤ 1024 ∨ (r.n2 % 1024 = 0 ∧ r.n2 < 65536 * 1024))
    (inj : ∀ q q' : Nat × Nat × Nat, (q.1 < r.n0 ∧ q.2.1 < r.n1 ∧ q.2.2 < r.n2) → (q'.1 < r.n0 ∧ q'.2.1 < r.n1 ∧ q'.2.2 < r.n2) → r.cell q.1 q.2.1 q.2.2 = r.cell q'.1 q'.2.1 q'.2.2 → q = q')
    (h : ∀ q : Nat × Nat × Nat, (q.1 < r.n0 ∧ q.2.1 < r.n1 ∧ q.2.2 < r.n2) → m (r.cell q.1 q.2.1 q.2.2) = some (a q)) :
    Ends (tv3 (.inc c) r r) m fun m' => Upd m m' (fun q : Nat × Nat × Nat => q.1 < r.n0 ∧ q.2.1 < r.n1 ∧ q.2.2 < r.n2) (fun q => r.cell q.1 q.2.1 q.2.2) fun q => a q + c :=
  tv3_core (.inc c) r r m a a h0 h1 hz hs (Meets.self inj h)

/-- A compact tensor of 5 x 3 x 2048 entries. -/
example : ∀ q q' : Nat × Nat × Nat, (q.1 < 5 ∧ q.2.1 < 3 ∧ q.2.2 < 2048) → (q'.1 < 5 ∧ q'.2.1 < 3 ∧ q'.2.2 < 2048) →
    (⟨0, 5, 3, 2048, 6144, 2048, 1⟩ : RV3).cell q.1 q.2.1 q.2.2 = (⟨0, 5, 3, 2048, 6144, 2048, 1⟩ : RV3).cell q'.1 q'.2.1 q'.2.2 → q = q' := by
  rintro ⟨i, j, k⟩ ⟨i', j', k'⟩ h h' e
  simp only [RV3.cell] at h h' e
  simp only [Prod.mk.injEq]
  omega

/-- With fewer than 128 entries but more than 64 along the last axis nothing happens. -/
theorem C427_last_axis_fails [Add α] (k : Op α) (r x : RV3) (m : Buf α) (h : r.n0 * r.n1 * r.n2 < 128) (h2 : 64 < r.n2) : Ends (tv3 k r x) m fun m' => m' = m := by
  rw [tv3, if_pos h]
  refine ends_skip m ?_
  rw [← Bool.not_eq_true, valid_iff]
  dsimp only
  omega

example : (⟨0, 1, 1, 100, 100, 100, 1⟩ : RV3).n0 * (⟨0, 1, 1, 100, 100, 100, 1⟩ : RV3).n1 * (⟨0, 1, 1, 100, 100, 100, 1⟩ : RV3).n2 < 128 ∧ 64 < (⟨0, 1, 1, 100, 100, 100, 1⟩ : RV3).n2 := by decide

/-- With more than 1024 along the last axis, not a multiple of 1024, those after the last multiple are left as they are. -/
theorem C427_tail_fails [Add α] (k : Op α) (r x : RV3) (m m' : Buf α) (h : 1024 < r.n2)
    (inj : ∀ i j l i' j' l', i < r.n0 → j < r.n1 → l < r.n2 → i' < r.n0 → j' < r.n1 → l' < r.n2 → r.cell i j l = r.cell i' j' l' → i = i' ∧ j = j' ∧ l = l')
    (ho : Out (tv3 k r x) m (.ok m')) (i j l : Nat) (hi : i < r.n0) (hj : j < r.n1) (hl : r.n2 / 1024 * 1024 ≤ l) (hn : l < r.n2) : m' (r.cell i j l) = m (r.cell i j l) := by
  have key : ∀ i' j' l', i' < r.n0 → j' < r.n1 → l' < r.n2 / 1024 * 1024 → r.cell i' j' l' ≠ r.cell i j l := fun i' j' l' hi' hj' hl' e => by
    have := (inj _ _ _ _ _ _ hi' hj' (by omega) hi hj hn e).2.2
    omega
  have hb1 : ¬ r.n1 * r.n2 < 128 := by
    have := Nat.mul_le_mul (show 1 ≤ r.n1 by omega) (Nat.le_refl r.n2)
    omega
  have hb0 : ¬ r.n0 * r.n1 * r.n2 < 128 := by
    have := Nat.mul_le_mul (show 1 ≤ r.n0 by omega) (Nat.le_refl (r.n1 * r.n2))
    rw [Nat.mul_assoc]
    omega
  refine out_frame (fun q => q ≠ r.cell i j l) _ (fun l' hl q hq => ?_) m m' ho _ fun h => h rfl
  rw [tv3, if_neg hb0, if_neg hb1, if_neg (by omega)] at hl
  obtain ⟨⟨bx, by', bz⟩, ⟨tx, ty, tz⟩⟩ := q
  obtain ⟨⟨a1, a2, a3⟩, a4, a5, a6⟩ := mem_ids'.1 hq
  rcases List.mem_cons.1 hl with hl | hl
  · rw [hl] at a1 a2 a3 a4 ⊢
    dsimp only at a1 a2 a3 a4 ⊢
    have e : jBBBT k r.arr x.arr r.s0 r.s1 (1024 * r.s2) r.s2 x.s0 x.s1 (1024 * x.s2) x.s2 ⟨bx, by', bz⟩ ⟨tx, ty, tz⟩ = k.thr (r.cell bx by' (bz * 1024 + tx)) (x.cell bx by' (bz * 1024 + tx)) := by
      dsimp only [jBBBT, RV3.cell]; congr 2 <;> ring
    rw [e]
    exact op_within _ _ _ _ (key _ _ _ a1 a2 (by omega))
  · split at hl
    · rw [List.mem_singleton.1 hl] at a1 a2 a4 ⊢
      dsimp only at a1 a2 a4 ⊢
      have e : jBBT k r.arr x.arr r.s0 r.s1 r.s2 x.s0 x.s1 x.s2 ⟨bx, by', bz⟩ ⟨tx, ty, tz⟩ = k.thr (r.cell bx by' tx) (x.cell bx by' tx) := by
        dsimp only [jBBT, RV3.cell]; congr 2 <;> ring
      rw [e]
      exact op_within _ _ _ _ (key _ _ _ a1 a2 (by omega))
    · cases hl

/-- A compact tensor of 2 x 3 x 1500 entries. -/
example : ∀ i j l i' j' l', i < 2 → j < 3 → l < 1500 → i' < 2 → j' < 3 → l' < 1500 → (⟨0, 2, 3, 1500, 4500, 1500, 1⟩ : RV3).cell i j l = (⟨0, 2, 3, 1500, 4500, 1500, 1⟩ : RV3).cell i' j' l' →
    i = i' ∧ j = j' ∧ l = l' := by
  intro i j l i' j' l' _ _ _ _ _ _ e
  simp only [RV3.cell] at e
  omega

end Cnine
