import Verif.Props.GpuR

/-!
# Sums, slices and ReLU on the GPU
-/

namespace Cnine

open Gpu Finset

variable {α : Type}

/-! ### C409: adding batches of vectors -/

theorem batchedAdd_core [Add α] (rarr arr b sb n s : Nat) (m : Buf α) (A B : Nat × Nat → α) (hb : b ≤ 2147483647) (hn : n / 1024 ≤ 65535)
    (h : Meets m (box2 b n) (fun q => rarr + (q.1 * sb + q.2 * s)) (fun q => arr + (q.1 * sb + q.2 * s)) A B) :
    Ends (batchedAdd rarr arr b sb n s) m fun m' => Upd m m' (box2 b n) (fun q => rarr + (q.1 * sb + q.2 * s)) fun q => A q + B q := by
  let _ : Mul α := ⟨fun a _ => a⟩
  rw [batchedAdd]
  split
  · refine Ends.kind .add (idx := fun q => (q.1.x, q.2.x)) h (covers_box _ _ _ _ _ (fun i => (⟨i.1, 0, 0⟩, ⟨i.2, 0, 0⟩)) ?_ ?_ ?_ ?_ ?_ ?_ ?_ ?_) fun q _ => ?_
    all_goals box
  · have c1 : ∀ N, N = n / 1024 * 1024 → Covers (⟨⟨b, n / 1024, 1⟩, ⟨1024, 1, 1⟩, kBatch1 rarr arr sb (s * 1024) s⟩ : Launch α) (box2 b N) fun q => (q.1.x, q.1.y * 1024 + q.2.x) := by
      intro N hN
      refine covers_box _ _ _ _ _ (fun i => (⟨i.1, i.2 / 1024, 0⟩, ⟨i.2 % 1024, 0, 0⟩)) ?_ ?_ ?_ ?_ ?_ ?_ ?_ ?_
      all_goals box
    have k1 : ∀ q : D3 × D3, kBatch1 (α := α) rarr arr sb (s * 1024) s q.1 q.2 = Kind.add.thr (rarr + (q.1.x * sb + (q.1.y * 1024 + q.2.x) * s)) (arr + (q.1.x * sb + (q.1.y * 1024 + q.2.x) * s)) := by
      intro q
      have e : q.1.x * sb + q.1.y * (s * 1024) + q.2.x * s = q.1.x * sb + (q.1.y * 1024 + q.2.x) * s := by ring
      rw [kBatch1, e]
      rfl
    split
    · refine Ends.kind2 .add (D1 := box2 b (n / 1024 * 1024)) (D2 := fun q => q.1 < b ∧ n / 1024 * 1024 ≤ q.2 ∧ q.2 < n) (idx1 := fun q => (q.1.x, q.1.y * 1024 + q.2.x))
        (idx2 := fun q => (q.1.x, n / 1024 * 1024 + q.2.x)) h (c1 _ rfl) (covers_box _ _ _ _ _ (fun i => (⟨i.1, 0, 0⟩, ⟨i.2 - n / 1024 * 1024, 0, 0⟩)) ?_ ?_ ?_ ?_ ?_ ?_ ?_ ?_) ?_ ?_
        (fun q _ => k1 q) fun q _ => ?_
      all_goals try box
      · have e : n - n % 1024 = n / 1024 * 1024 := by omega
        have e2 : ∀ c, c + n / 1024 * 1024 * s + (q.1.x * sb + q.2.x * s) = c + (q.1.x * sb + (n / 1024 * 1024 + q.2.x) * s) := fun c => by ring
        dsimp only [kBatch0]
        rw [e, e2, e2]
        rfl
    · have e : n / 1024 * 1024 = n := by omega
      have c1' := c1 n e.symm
      exact Ends.kind .add h c1' fun q _ => k1 q

/-- Adding batches of vectors on the GPU. -/
theorem C409_batches [Add α] (rarr arr b sb n s : Nat) (m : Buf α) (A B : Nat × Nat → α) (hb : b ≤ 2147483647) (hn : n < 65536 * 1024)
    (h : Meets m (fun q : Nat × Nat => q.1 < b ∧ q.2 < n) (fun q => rarr + (q.1 * sb + q.2 * s)) (fun q => arr + (q.1 * sb + q.2 * s)) A B) :
    Ends (batchedAdd rarr arr b sb n s) m fun m' => Upd m m' (fun q : Nat × Nat => q.1 < b ∧ q.2 < n) (fun q => rarr + (q.1 * sb + q.2 * s)) fun q => A q + B q :=
  batchedAdd_core rarr arr b sb n s m A B hb (by omega) h

example : Meets (fun p => some (p : Int)) (fun q : Nat × Nat => q.1 < 3 ∧ q.2 < 1500) (fun q => 0 + (q.1 * 3000 + q.2 * 1)) (fun q => 1500 + (q.1 * 3000 + q.2 * 1))
    (fun q => (q.1 * 3000 + q.2 : Nat)) (fun q => (1500 + q.1 * 3000 + q.2 : Nat)) := by
  refine ⟨?_, ?_, ?_, ?_⟩
  · rintro ⟨i, j⟩ ⟨i', j'⟩ h h' e
    simp only at h h' e
    simp only [Prod.mk.injEq]
    omega
  · rintro ⟨i, j⟩ ⟨i', j'⟩ h h' e
    simp only at h h' e
    simp only [Prod.mk.injEq]
    omega
  · rintro ⟨i, j⟩ h
    simp
  · rintro ⟨i, j⟩ h
    simp
    ring

/-- With 65536*1024 entries or more only those after the last multiple of 1024 are added: the first launch has too many blocks. -/
theorem C420_batched_fails [Add α] (rarr arr b sb n s : Nat) (m m' : Buf α) (hn : 65536 * 1024 ≤ n) (hs : n % 1024 = 0) (ho : Out (batchedAdd rarr arr b sb n s) m (.ok m')) : m' = m := by
  rw [batchedAdd, if_neg (by omega), if_neg (by omega)] at ho
  obtain ⟨m2, e, h⟩ := (ends_skip m (l := ⟨⟨b, n / 1024, 1⟩, ⟨1024, 1, 1⟩, kBatch1 rarr arr sb (s * 1024) s⟩) (by
    rw [← Bool.not_eq_true, valid_iff]
    dsimp only
    omega)).2 _ ho
  cases e
  exact h

/-! ### C410: summing an axis in place -/

theorem Gpu.Ends.append {ls ls' : List (Launch α)} {m : Buf α} {P Q : Buf α → Prop} (h1 : Ends ls m P) (h2 : ∀ m', P m' → Ends ls' m' Q) : Ends (ls ++ ls') m Q := by
  induction ls generalizing m with
  | nil =>
    obtain ⟨m', e, hp⟩ := h1.2 _ (.nil m)
    cases e
    exact h2 m hp
  | cons l ls ih =>
    have hl : Ends [l] m fun m' => Ends ls m' P := by
      have key : ∀ m', Out [l] m (.ok m') → ∀ o, Out ls m' o → Out (l :: ls) m o := fun m' h o ho => by
        generalize he : (Res.ok m' : Res (Buf α)) = e at h
        cases h with
        | skip hv hr => cases hr; cases he; exact .skip hv ho
        | ran hv sched m2 ts he' hd hr => cases hr; cases he; exact .ran hv sched m' ts he' hd ho
        | bad hv sched hb => cases he
      have all : ∀ m', Out [l] m (.ok m') → Ends ls m' P := fun m' hm' => by
        refine ⟨?_, fun o ho => h1.2 o (key m' hm' o ho)⟩
        -- some outcome exists: every list of launches has one
        obtain ⟨o, ho⟩ : ∃ o, Out ls m' o := by
          clear h1 ih key hm'
          induction ls generalizing m' with
          | nil => exact ⟨_, .nil m'⟩
          | cons l' ls ih =>
            cases hv : l'.valid with
            | false => obtain ⟨o, ho⟩ := ih m'; exact ⟨o, .skip hv ho⟩
            | true =>
              obtain ⟨sched, h | ⟨m2, ts, e, hd⟩⟩ := finish m' l'.start
              · exact ⟨_, .bad hv sched h⟩
              · obtain ⟨o, ho⟩ := ih m2
                exact ⟨o, .ran hv sched m2 ts e hd ho⟩
        obtain ⟨m2, e, _⟩ := h1.2 o (key m' hm' o ho)
        exact ⟨m2, e ▸ ho⟩
      refine ⟨?_, fun o ho => ?_⟩
      · obtain ⟨m2, hm2⟩ := h1.1
        cases hm2 with
        | skip hv hr => exact ⟨m, .skip hv (.nil m)⟩
        | ran hv sched m1 ts he hd hr => exact ⟨m1, .ran hv sched m1 ts he hd (.nil m1)⟩
      · cases ho with
        | skip hv hr => cases hr; exact ⟨m, rfl, all m (.skip hv (.nil m))⟩
        | ran hv sched m1 ts he hd hr => cases hr; exact ⟨m1, rfl, all m1 (.ran hv sched m1 ts he hd (.nil m1))⟩
        | bad hv sched he =>
          obtain ⟨m2, e, _⟩ := h1.2 _ (.bad hv sched he)
          cases e
    exact hl.seq fun m' h => ih h

/-- The rows below `e` of each batch still to be summed: they add up to the sums wanted, and nothing outside the view has changed. -/
structure Gpu.Left [AddCommMonoid α] (x : RV3) (m0 : Buf α) (A : Nat → Nat → Nat → α) (e : Nat) (m : Buf α) : Prop where
  vals : ∃ C : Nat → Nat → Nat → α, (∀ i j k, i < x.n0 → j < x.n1 → k < x.n2 → m (x.cell i j k) = some (C i j k)) ∧
    ∀ i k, i < x.n0 → k < x.n2 → ∑ j ∈ range e, C i j k = ∑ j ∈ range x.n1, A i j k
  frame : ∀ p, (∀ i j k, i < x.n0 → j < x.n1 → k < x.n2 → p ≠ x.cell i j k) → m p = m0 p

/-- A step that adds the rows `a..a+r` to the rows `0..r`. -/
theorem Gpu.Left.step [AddCommMonoid α] {x : RV3} (h2 : x.s2 = 1) (h1 : x.s1 = x.n2) (h0 : x.s0 = x.n1 * x.n2) {m0 m : Buf α} {A : Nat → Nat → Nat → α} {a r : Nat}
    (h : Left x m0 A (a + r) m) (hr : r ≤ a) (hn : a + r ≤ x.n1) {ls : List (Launch α)}
    (hl : ∀ B C : Nat × Nat → α, Meets m (box2 x.n0 (r * x.n2)) (fun q => x.arr + (q.1 * x.s0 + q.2 * 1)) (fun q => x.arr + a * x.n2 + (q.1 * x.s0 + q.2 * 1)) B C →
      Ends ls m fun m' => Upd m m' (box2 x.n0 (r * x.n2)) (fun q => x.arr + (q.1 * x.s0 + q.2 * 1)) fun q => B q + C q) : Ends ls m (Left x m0 A a) := by
  obtain ⟨⟨C, hC, hsum⟩, hf⟩ := h
  have hcell : ∀ i j k, x.cell i j k = x.arr + (i * x.s0 + (j * x.n2 + k)) := fun i j k => by
    rw [RV3.cell, h1, h2]
    ring
  rcases Nat.eq_zero_or_pos x.n2 with hz | hz
  · have hd : ∀ q, ¬ box2 x.n0 (r * x.n2) q := fun q hq => by
      have := hq.2
      rw [hz] at this
      omega
    refine (hl (fun _ => 0) (fun _ => 0) ⟨fun i _ hi => absurd hi (hd i), fun i _ hi => absurd hi (hd i), fun i hi => absurd hi (hd i), fun i hi => absurd hi (hd i)⟩).imp fun m' hu => ?_
    have hm : ∀ p, m' p = m p := fun p => hu.2 p fun i hi => absurd hi (hd i)
    refine ⟨⟨C, fun i j k _ _ hk => ?_, fun i k _ hk => ?_⟩, fun p hp => (hm p).trans (hf p hp)⟩
    · omega
    · omega
  have hrow : ∀ t, t < r * x.n2 → t / x.n2 < r ∧ t % x.n2 < x.n2 ∧ t / x.n2 * x.n2 + t % x.n2 = t := fun t ht =>
    ⟨(Nat.div_lt_iff_lt_mul hz).2 ht, Nat.mod_lt _ hz, by rw [Nat.mul_comm]; exact Nat.div_add_mod t x.n2⟩
  have hblk : ∀ j k, j < r → k < x.n2 → j * x.n2 + k < r * x.n2 := fun j k hj hk => by
    have := Nat.mul_le_mul_right x.n2 (show j + 1 ≤ r from hj)
    rw [Nat.add_mul] at this
    omega
  have hblk1 : ∀ j k, j < x.n1 → k < x.n2 → j * x.n2 + k < x.s0 := fun j k hj hk => by
    have := Nat.mul_le_mul_right x.n2 (show j + 1 ≤ x.n1 from hj)
    rw [Nat.add_mul] at this
    omega
  have hra : r * x.n2 ≤ a * x.n2 := Nat.mul_le_mul_right _ hr
  have har : a * x.n2 + r * x.n2 ≤ x.s0 := by
    rw [← Nat.add_mul, h0]
    exact Nat.mul_le_mul_right _ hn
  have hq : ∀ i i' t t', t < x.s0 → t' < x.s0 → i * x.s0 + t = i' * x.s0 + t' → i = i' ∧ t = t' := fun i i' t t' ht ht' e => by
    have hs : 0 < x.s0 := by omega
    have e1 : (i * x.s0 + t) / x.s0 = i := by rw [Nat.mul_comm, Nat.mul_add_div hs, Nat.div_eq_of_lt ht]; rfl
    have e2 : (i' * x.s0 + t') / x.s0 = i' := by rw [Nat.mul_comm, Nat.mul_add_div hs, Nat.div_eq_of_lt ht']; rfl
    rw [e, e2] at e1
    subst e1
    exact ⟨rfl, by omega⟩
  have hmeets : Meets m (box2 x.n0 (r * x.n2)) (fun q => x.arr + (q.1 * x.s0 + q.2 * 1)) (fun q => x.arr + a * x.n2 + (q.1 * x.s0 + q.2 * 1))
      (fun q => C q.1 (q.2 / x.n2) (q.2 % x.n2)) (fun q => C q.1 (a + q.2 / x.n2) (q.2 % x.n2)) := by
    refine ⟨?_, ?_, ?_, ?_⟩
    · rintro ⟨i, t⟩ ⟨i', t'⟩ ⟨_, ht⟩ ⟨_, ht'⟩ e
      dsimp only at *
      obtain ⟨e1, e2⟩ := hq i i' t t' (by omega) (by omega) (by omega)
      rw [e1, e2]
    · rintro ⟨i, t⟩ ⟨i', t'⟩ ⟨_, ht⟩ ⟨_, ht'⟩ e
      dsimp only at *
      obtain ⟨e1, e2⟩ := hq i i' t (a * x.n2 + t') (by omega) (by omega) (by omega)
      omega
    · rintro ⟨i, t⟩ ⟨hi, ht⟩
      dsimp only at *
      obtain ⟨b1, b2, b3⟩ := hrow t ht
      rw [← hC i (t / x.n2) (t % x.n2) hi (by omega) b2, hcell, b3, Nat.mul_one]
    · rintro ⟨i, t⟩ ⟨hi, ht⟩
      dsimp only at *
      obtain ⟨b1, b2, b3⟩ := hrow t ht
      rw [← hC i (a + t / x.n2) (t % x.n2) hi (by omega) b2, hcell]
      congr 1
      rw [Nat.add_mul]
      omega
  refine (hl _ _ hmeets).imp fun m' hu => ⟨⟨fun i j k => if j < r then C i j k + C i (a + j) k else C i j k, fun i j k hi hj hk => ?_, fun i k hi hk => ?_⟩, fun p hp => ?_⟩
  · dsimp only
    by_cases hjr : j < r
    · rw [if_pos hjr]
      have h' := hu.1 (i, j * x.n2 + k) ⟨hi, hblk j k hjr hk⟩
      dsimp only at h'
      rw [hcell, show x.arr + (i * x.s0 + (j * x.n2 + k)) = x.arr + (i * x.s0 + (j * x.n2 + k) * 1) by omega, h']
      have e1 : (j * x.n2 + k) / x.n2 = j := by rw [Nat.mul_comm, Nat.mul_add_div hz, Nat.div_eq_of_lt hk]; rfl
      have e2 : (j * x.n2 + k) % x.n2 = k := by rw [Nat.mul_comm, Nat.mul_add_mod, Nat.mod_eq_of_lt hk]
      rw [e1, e2]
    · rw [if_neg hjr, ← hC i j k hi hj hk]
      refine hu.2 _ fun q hqd e => ?_
      obtain ⟨i', t⟩ := q
      obtain ⟨_, ht⟩ := hqd
      dsimp only at ht e
      rw [hcell] at e
      have g := hblk1 j k hj hk
      obtain ⟨_, e2⟩ := hq i i' (j * x.n2 + k) t g (by omega) (by omega)
      have := Nat.mul_le_mul_right x.n2 (show r ≤ j by omega)
      omega
  · rw [← hsum i k hi hk]
    obtain ⟨d, hd⟩ : ∃ d, a = r + d := ⟨a - r, by omega⟩
    rw [sum_range_add, hd, sum_range_add]
    have e1 : ∑ j ∈ range r, (if j < r then C i j k + C i (r + d + j) k else C i j k) = ∑ j ∈ range r, C i j k + ∑ j ∈ range r, C i (r + d + j) k := by
      rw [← sum_add_distrib]
      exact sum_congr rfl fun j hj => by rw [if_pos (mem_range.1 hj)]
    have e2 : ∑ j ∈ range d, (if r + j < r then C i (r + j) k + C i (r + d + (r + j)) k else C i (r + j) k) = ∑ j ∈ range d, C i (r + j) k :=
      sum_congr rfl fun j _ => by rw [if_neg (by omega)]
    rw [e1, e2, sum_range_add]
    exact add_right_comm _ _ _
  · rw [hu.2 p fun q hqd e => ?_]
    · exact hf p hp
    · obtain ⟨i, t⟩ := q
      obtain ⟨hi, ht⟩ := hqd
      dsimp only at hi ht e
      obtain ⟨b1, b2, b3⟩ := hrow t ht
      exact hp i (t / x.n2) (t % x.n2) hi (by omega) b2 (by rw [hcell, e]; omega)

theorem top_spec (n : Nat) : ∀ fuel s, n ≤ 2 ^ s + fuel → (s = 0 ∨ 2 ^ s < 2 * n) → ∃ t, top n fuel (2 ^ s) = 2 ^ t / 2 ∧ n ≤ 2 ^ t ∧ (t = 0 ∨ 2 ^ t < 2 * n) := by
  intro fuel
  induction fuel with
  | zero => exact fun s h1 h2 => ⟨s, rfl, h1, h2⟩
  | succ fuel ih =>
    intro s h1 h2
    rw [top]
    split
    · rename_i hlt
      rw [← Nat.pow_succ]
      have hp := Nat.pos_of_ne_zero (show (2 ^ s : Nat) ≠ 0 by exact Nat.pos_iff_ne_zero.1 (Nat.two_pow_pos s))
      refine ih (s + 1) ?_ (.inr ?_)
      · rw [Nat.pow_succ]; omega
      · rw [Nat.pow_succ]; omega
    · exact ⟨s, rfl, by omega, h2⟩

theorem top_two (n : Nat) (h : 2 ≤ n) : ∃ t, top n n 1 = 2 ^ t ∧ 2 ^ t < n ∧ n ≤ 2 * 2 ^ t := by
  obtain ⟨t, e, h1, h2⟩ := top_spec n n 0 (by omega) (.inl rfl)
  cases t with
  | zero => simp at h1; omega
  | succ t =>
    have : (2 : Nat) ^ (t + 1) = 2 * 2 ^ t := by rw [Nat.pow_succ]; ring
    rw [show (2 : Nat) ^ 0 = 1 from rfl] at e
    refine ⟨t, by rw [e, this]; omega, ?_, by omega⟩
    rcases h2 with h2 | h2 <;> omega

theorem halves_spec [AddCommMonoid α] (x : RV3) (m0 : Buf α) (A : Nat → Nat → Nat → α) (f : Nat → List (Launch α)) (hf : ∀ a m, 0 < a → a + a ≤ x.n1 → Left x m0 A (a + a) m → Ends (f a) m (Left x m0 A a)) :
    ∀ t fuel m, 2 ^ t ≤ fuel → 2 ^ t ≤ x.n1 → Left x m0 A (2 ^ t) m → Ends (halves f fuel (2 ^ t / 2)) m (Left x m0 A 1) := by
  intro t
  induction t with
  | zero =>
    intro fuel m _ _ h
    cases fuel with
    | zero => exact Ends.nil h
    | succ fuel => exact Ends.nil h
  | succ t ih =>
    intro fuel m hfu hn h
    have e : (2 : Nat) ^ (t + 1) = 2 ^ t + 2 ^ t := by rw [Nat.pow_succ]; ring
    have hp : 0 < 2 ^ t := Nat.two_pow_pos t
    rw [e] at h hn hfu ⊢
    have e2 : (2 ^ t + 2 ^ t) / 2 = 2 ^ t := by omega
    rw [e2]
    cases fuel with
    | zero => omega
    | succ fuel =>
      rw [halves, if_pos hp]
      exact (hf (2 ^ t) m hp hn h).append fun m' h' => ih fuel m' (by omega) (by omega) h'

/-- Summing the middle axis of a regular view in place on the GPU: the first row of each batch gets the sums, and nothing outside the view changes. -/
theorem C410_reduce [AddCommMonoid α] (x : RV3) (m : Buf α) (A : Nat → Nat → Nat → α) (hr : x.isRegular = true) (h0 : x.n0 ≤ 2147483647) (h1 : 2 ≤ x.n1) (hn : x.n1 * x.n2 < 65536 * 1024)
    (hA : ∀ i j k, i < x.n0 → j < x.n1 → k < x.n2 → m (x.cell i j k) = some (A i j k)) :
    Ends (reduce1 x) m fun m' => (∀ i k, i < x.n0 → k < x.n2 → m' (x.cell i 0 k) = some (∑ j ∈ range x.n1, A i j k)) ∧
      ∀ p, (∀ i j k, i < x.n0 → j < x.n1 → k < x.n2 → p ≠ x.cell i j k) → m' p = m p := by
  simp only [RV3.isRegular, Bool.and_eq_true, decide_eq_true_eq] at hr
  obtain ⟨⟨s2, s1⟩, s0⟩ := hr
  have s0' : x.s0 = x.n1 * x.n2 := by rw [s0, s1]
  obtain ⟨t, et, ht1, ht2⟩ := top_two x.n1 h1
  have hstep : ∀ a r m', r ≤ a → a + r ≤ x.n1 → Left x m A (a + r) m' → Ends (batchedAdd x.arr (x.arr + a * x.s1) x.n0 x.s0 (r * x.s1) x.s2) m' (Left x m A a) := fun a r m' hra han h =>
    h.step s2 s1 s0' hra han fun B C hm => by
      rw [s1, s2]
      have : r * x.n2 ≤ x.n1 * x.n2 := Nat.mul_le_mul_right _ (by omega)
      exact batchedAdd_core _ _ _ _ _ _ m' B C h0 (by omega) hm
  rw [reduce1, et]
  have hl : Left x m A (2 ^ t + (x.n1 - 2 ^ t)) m := ⟨⟨A, hA, fun i k _ _ => by rw [show 2 ^ t + (x.n1 - 2 ^ t) = x.n1 by omega]⟩, fun _ _ => rfl⟩
  refine ((hstep _ _ m (by omega) (by omega) hl).append fun m1 h => halves_spec x m A _ (fun a m2 ha han h => hstep a a m2 (Nat.le_refl _) han h) t x.n1 m1 (by omega) (by omega) h).imp
    fun m' h => ⟨fun i k hi hk => ?_, h.frame⟩
  obtain ⟨⟨C, hC, hs⟩, _⟩ := h
  rw [hC i 0 k hi (by omega) hk, ← hs i k hi hk, sum_range_one]

/-- The hypotheses hold for the first 30 cells as two batches of five rows of three. -/
example : (⟨0, 2, 5, 3, 15, 3, 1⟩ : RV3).isRegular = true ∧ ∀ i j k, i < 2 → j < 5 → k < 3 → (fun p => some (p : Int)) ((⟨0, 2, 5, 3, 15, 3, 1⟩ : RV3).cell i j k) = some ((15 * i + 3 * j + k : Nat) : Int) := by
  refine ⟨rfl, fun i j k _ _ _ => ?_⟩
  simp only [RV3.cell]
  congr 2
  omega

/-- A middle axis with one entry is doubled instead. -/
theorem C411_one_fails [AddCommMonoid α] (x : RV3) (m : Buf α) (A : Nat → Nat → α) (hr : x.isRegular = true) (h0 : x.n0 ≤ 2147483647) (h1 : x.n1 = 1) (hn : x.n2 < 65536 * 1024)
    (hA : ∀ i k, i < x.n0 → k < x.n2 → m (x.cell i 0 k) = some (A i k)) :
    Ends (reduce1 x) m fun m' => ∀ i k, i < x.n0 → k < x.n2 → m' (x.cell i 0 k) = some (A i k + A i k) := by
  simp only [RV3.isRegular, Bool.and_eq_true, decide_eq_true_eq] at hr
  obtain ⟨⟨s2, s1⟩, s0⟩ := hr
  rw [h1, Nat.one_mul] at s0
  have hcell : ∀ i k, x.cell i 0 k = x.arr + (i * x.s0 + k * 1) := fun i k => by rw [RV3.cell, s2]; ring
  rw [reduce1, h1, show top 1 1 1 = 0 from rfl]
  have e : halves (fun a => batchedAdd (α := α) x.arr (x.arr + a * x.s1) x.n0 x.s0 (a * x.s1) x.s2) 1 (0 / 2) = [] := rfl
  rw [e, List.append_nil, s2, Nat.zero_mul, Nat.add_zero, Nat.sub_zero, Nat.one_mul, s1]
  have inj : ∀ i j : Nat × Nat, box2 x.n0 x.n2 i → box2 x.n0 x.n2 j → x.arr + (i.1 * x.s0 + i.2 * 1) = x.arr + (j.1 * x.s0 + j.2 * 1) → i = j := by
    rintro ⟨i, k⟩ ⟨i', k'⟩ ⟨_, hk⟩ ⟨_, hk'⟩ e
    dsimp only at *
    have e : i * x.n2 + k = i' * x.n2 + k' := by rw [s0, s1] at e; omega
    have hz : 0 < x.n2 := by omega
    have e1 : (i * x.n2 + k) / x.n2 = i := by rw [Nat.mul_comm, Nat.mul_add_div hz, Nat.div_eq_of_lt hk]; rfl
    have e2 : (i' * x.n2 + k') / x.n2 = i' := by rw [Nat.mul_comm, Nat.mul_add_div hz, Nat.div_eq_of_lt hk']; rfl
    rw [e, e2] at e1
    subst e1
    rw [show k = k' by omega]
  refine (batchedAdd_core x.arr x.arr x.n0 x.s0 x.n2 1 m (fun q => A q.1 q.2) (fun q => A q.1 q.2) h0 (by omega) ⟨inj, inj, fun q hq => ?_, fun q hq => ?_⟩).imp fun m' h i k hi hk => ?_
  · rw [← hcell]; exact hA _ _ hq.1 hq.2
  · rw [← hcell]; exact hA _ _ hq.1 hq.2
  · rw [hcell]; exact h.1 (i, k) ⟨hi, hk⟩

example : (⟨0, 2, 1, 3, 3, 3, 1⟩ : RV3).isRegular = true := rfl

/-! ### C412: `InplaceReduce1_cu` -/

theorem batchedFold_core [Add α] (arr b sb n s offs : Nat) (m : Buf α) (A B : Nat × Nat → α) (hb : b ≤ 2147483647) (hn : n / 1024 ≤ 65535) (hm : n ≤ 1024 ∨ n % 1024 = 0)
    (h : Meets m (box2 b n) (fun q => arr + (q.1 * sb + q.2 * s)) (fun q => arr + offs + (q.1 * sb + q.2 * s)) A B) :
    Ends (batchedFold arr b sb n s offs) m fun m' => Upd m m' (box2 b n) (fun q => arr + (q.1 * sb + q.2 * s)) fun q => A q + B q := by
  let _ : Mul α := ⟨fun a _ => a⟩
  have e2 : ∀ u, arr + (u + offs) = arr + offs + u := fun u => by omega
  rw [batchedFold]
  split
  · refine Ends.kind .add (idx := fun q => (q.1.x, q.2.x)) h (covers_box _ _ _ _ _ (fun i => (⟨i.1, 0, 0⟩, ⟨i.2, 0, 0⟩)) ?_ ?_ ?_ ?_ ?_ ?_ ?_ ?_) fun q _ => ?_
    all_goals try box
    dsimp only [kFold0]
    rw [e2]
    rfl
  · rw [if_neg (by omega)]
    refine Ends.kind .add (idx := fun q => (q.1.x, q.1.y * 1024 + q.2.x)) h (covers_box _ _ _ _ _ (fun i => (⟨i.1, i.2 / 1024, 0⟩, ⟨i.2 % 1024, 0, 0⟩)) ?_ ?_ ?_ ?_ ?_ ?_ ?_ ?_) fun q _ => ?_
    all_goals try box
    have e : q.1.x * sb + q.1.y * (s * 1024) + q.2.x * s = q.1.x * sb + (q.1.y * 1024 + q.2.x) * s := by ring
    dsimp only [kFold1]
    rw [e2, e]
    rfl

/-- The function of the reductions of the GPU does the same if a batch has at most 2048 entries or the rows have a multiple of 1024 entries. -/
theorem C412_reduce_partial [AddCommMonoid α] (x : RV3) (m : Buf α) (A : Nat → Nat → Nat → α) (hr : x.isRegular = true) (h0 : x.n0 ≤ 2147483647) (h1 : 2 ≤ x.n1) (hn : x.n1 * x.n2 < 65536 * 1024)
    (hd : x.n1 * x.n2 ≤ 2048 ∨ x.n2 % 1024 = 0) (hA : ∀ i j k, i < x.n0 → j < x.n1 → k < x.n2 → m (x.cell i j k) = some (A i j k)) :
    Ends (inplaceReduce1 x) m fun m' => (∀ i k, i < x.n0 → k < x.n2 → m' (x.cell i 0 k) = some (∑ j ∈ range x.n1, A i j k)) ∧
      ∀ p, (∀ i j k, i < x.n0 → j < x.n1 → k < x.n2 → p ≠ x.cell i j k) → m' p = m p := by
  simp only [RV3.isRegular, Bool.and_eq_true, decide_eq_true_eq] at hr
  obtain ⟨⟨s2, s1⟩, s0⟩ := hr
  have s0' : x.s0 = x.n1 * x.n2 := by rw [s0, s1]
  obtain ⟨t, et, ht1, ht2⟩ := top_two x.n1 h1
  have hstep : ∀ a r m', r ≤ a → a + r ≤ x.n1 → Left x m A (a + r) m' → Ends (batchedFold x.arr x.n0 x.s0 (r * x.n2) x.s2 (a * x.n2)) m' (Left x m A a) := fun a r m' hra han h =>
    h.step s2 s1 s0' hra han fun B C hm => by
      rw [s2]
      have h3 : r * x.n2 ≤ x.n1 * x.n2 := Nat.mul_le_mul_right _ (by omega)
      have h4 : (r + r) * x.n2 ≤ x.n1 * x.n2 := Nat.mul_le_mul_right _ (by omega)
      rw [Nat.add_mul] at h4
      refine batchedFold_core _ _ _ _ _ _ m' B C h0 (by omega) ?_ hm
      rcases hd with hd | hd
      · exact .inl (by omega)
      · exact .inr (by rw [Nat.mul_mod, hd]; rfl)
  rw [inplaceReduce1, et]
  have hl : Left x m A (2 ^ t + (x.n1 - 2 ^ t)) m := ⟨⟨A, hA, fun i k _ _ => by rw [show 2 ^ t + (x.n1 - 2 ^ t) = x.n1 by omega]⟩, fun _ _ => rfl⟩
  refine ((hstep _ _ m (by omega) (by omega) hl).append fun m1 h => halves_spec x m A _ (fun a m2 ha han h => hstep a a m2 (Nat.le_refl _) han h) t x.n1 m1 (by omega) (by omega) h).imp
    fun m' h => ⟨fun i k hi hk => ?_, h.frame⟩
  obtain ⟨⟨C, hC, hs⟩, _⟩ := h
  rw [hC i 0 k hi (by omega) hk, ← hs i k hi hk, sum_range_one]

example : (⟨0, 2, 5, 3, 15, 3, 1⟩ : RV3).n1 * (⟨0, 2, 5, 3, 15, 3, 1⟩ : RV3).n2 ≤ 2048 ∧ (⟨0, 2, 5, 3, 15, 3, 1⟩ : RV3).isRegular = true := by decide

theorem fold_within [Add α] (arr sb s0 offs : Nat) (b t : D3) (W : Nat → Prop) (h : W (arr + (b.x * sb + t.x * s0))) : Within (fun _ => True) W (kFold0 (α := α) arr sb s0 offs b t) :=
  (Within.rd (.inl trivial)).bind fun _ => Within.inc h

theorem fold1_within [Add α] (arr sb s0 s1 offs : Nat) (b t : D3) (W : Nat → Prop) (h : W (arr + (b.x * sb + b.y * s0 + t.x * s1))) :
    Within (fun _ => True) W (kFold1 (α := α) arr sb s0 s1 offs b t) := (Within.rd (.inl trivial)).bind fun _ => Within.inc h

/-- Otherwise not: with two rows of more than 1024 entries, not a multiple of 1024, the last entry of the first row is never touched, so it does not get the sum. -/
theorem C412_tail_fails [Add α] (x : RV3) (m m' : Buf α) (hr : x.isRegular = true) (h0 : 0 < x.n0) (h1 : x.n1 = 2) (h2 : 1024 < x.n2) (hd : x.n2 % 1024 ≠ 0) (ho : Out (inplaceReduce1 x) m (.ok m')) :
    m' (x.cell 0 0 (x.n2 - 1)) = m (x.cell 0 0 (x.n2 - 1)) := by
  simp only [RV3.isRegular, Bool.and_eq_true, decide_eq_true_eq] at hr
  obtain ⟨⟨s2, s1⟩, s0⟩ := hr
  rw [s1, h1] at s0
  have e : halves (fun a => batchedFold (α := α) x.arr x.n0 x.s0 (a * x.n2) x.s2 (a * x.n2)) 2 (1 / 2) = [] := rfl
  rw [inplaceReduce1, h1, show top 2 2 1 = 1 from rfl, e, List.append_nil, batchedFold, if_neg (by omega), if_pos (by omega), s2, show (2 - 1) * x.n2 = x.n2 by omega] at ho
  have hbig : ∀ b : Nat, b = 0 ∨ 2 * x.n2 ≤ b * x.s0 := fun b => by
    rcases Nat.eq_zero_or_pos b with h | h
    · exact .inl h
    · exact .inr (by rw [s0]; exact Nat.le_mul_of_pos_left _ h)
  refine out_frame (fun q => q ≠ x.cell 0 0 (x.n2 - 1)) _ (fun l hl q hq => ?_) m m' ho _ fun h => h rfl
  rw [RV3.cell, s2]
  simp only [List.mem_cons, List.not_mem_nil, or_false] at hl
  obtain ⟨⟨bx, by', bz⟩, ⟨tx, ty, tz⟩⟩ := q
  rcases hl with rfl | rfl
  · obtain ⟨⟨a1, a2, a3⟩, a4, a5, a6⟩ := mem_ids'.1 hq
    refine fold1_within _ _ _ _ _ _ _ _ ?_
    dsimp only at *
    have hy : by' * 1024 + tx < x.n2 / 1024 * 1024 := by omega
    rcases hbig bx with h | h
    · rw [h]; omega
    · omega
  · obtain ⟨⟨a1, a2, a3⟩, a4, a5, a6⟩ := mem_ids'.1 hq
    refine fold_within _ _ _ _ _ _ _ ?_
    dsimp only at *
    rcases hbig bx with h | h
    · rw [h]; omega
    · omega

example : (⟨0, 1, 2, 1500, 3000, 1500, 1⟩ : RV3).isRegular = true ∧ 1500 % 1024 ≠ 0 := by decide

/-! ### C413, C414: sums into a vector or matrix -/

/-- The threads of the kernels for sums. -/
def Gpu.sumThr [Zero α] [Add α] [Mul α] (c : Option α) (dst : Nat) (f : Nat → Nat) (n : Nat) : Thr α Unit := do
  let v ← Thr.loop n 0 fun i v => do
    let w ← Thr.rd (f i)
    pure (v + w)
  match c with
  | none => Thr.inc dst v
  | some c => Thr.inc dst (v * c)

/-- What such a thread adds. -/
def Gpu.sumVal [Mul α] (c : Option α) (v : α) : α :=
  match c with
  | none => v
  | some c => v * c

theorem sumThr_one [AddCommMonoid α] [Mul α] (c : Option α) (dst : Nat) (f : Nat → Nat) (n : Nat) (m : Buf α) (a : α) (b : Nat → α) (ha : m dst = some a) (hb : ∀ i, i < n → m (f i) = some (b i)) :
    One m (sumThr c dst f n) dst (a + sumVal c (∑ i ∈ range n, b i)) fun p => ∃ i, i < n ∧ p = f i := by
  refine ⟨(Within.loop fun i hi v => (Within.rd (.inl ⟨i, hi, rfl⟩)).bind fun w => Within.ret _).bind fun v => ?_, ?_⟩
  · cases c
    · exact Within.inc rfl
    · exact Within.inc rfl
  · rw [sumThr, Thr.run_bind, Thr.run_loop n 0 _ (fun i => ∑ j ∈ range i, b j) rfl fun i hi => ?_, Res.ok_bind]
    · cases c
      · exact Thr.run_inc _ ha
      · exact Thr.run_inc _ ha
    · rw [Thr.run_bind, Thr.run_rd (hb i hi), Res.ok_bind, sum_range_succ]
      rfl

theorem sum0_core [AddCommMonoid α] [Mul α] (c : Option α) (r : RV1) (x : RV2) (m : Buf α) (a : Nat → α) (b : Nat → Nat → α) (hr : r.n0 = x.n1) (h1 : x.n1 ≤ 2147483647)
    (inj : ∀ i j, i < r.n0 → j < r.n0 → r.cell i = r.cell j → i = j) (apart : ∀ i j k, i < r.n0 → j < x.n0 → k < x.n1 → r.cell i ≠ x.cell j k)
    (ha : ∀ i, i < r.n0 → m (r.cell i) = some (a i)) (hb : ∀ j k, j < x.n0 → k < x.n1 → m (x.cell j k) = some (b j k)) :
    ∃ ls, sum0Into c r x = .ok ls ∧ Ends ls m fun m' => Upd m m' (fun i => i < r.n0) r.cell fun i => a i + sumVal c (∑ j ∈ range x.n0, b j i) := by
  have one : ∀ i, i < r.n0 → One m (sumThr c (r.cell i) (fun j => x.cell j i) x.n0) (r.cell i) (a i + sumVal c (∑ j ∈ range x.n0, b j i)) fun p => ∃ j, j < x.n0 ∧ p = x.cell j i := fun i hi =>
    sumThr_one c _ _ _ m _ (fun j => b j i) (ha i hi) fun j hj => hb j i hj (by omega)
  have hS : ∀ i j, i < r.n0 → j < r.n0 → i ≠ j → ¬ ∃ k, k < x.n0 ∧ r.cell i = x.cell k j := fun i j hi hj _ ⟨k, hk, e⟩ => apart i k j hi hk (by omega) e
  have k0 : ∀ N (q : D3 × D3), kSum0 c (r.arr + N * r.s0) (x.arr + N * x.s1) r.s0 x.s0 x.s1 x.n0 q.1 q.2 = sumThr c (r.cell (N + q.2.x)) (fun j => x.cell j (N + q.2.x)) x.n0 := fun N q => by
    have e1 : r.cell (N + q.2.x) = r.arr + N * r.s0 + q.2.x * r.s0 := by rw [RV1.cell]; ring
    have e2 : ∀ j, x.cell j (N + q.2.x) = x.arr + N * x.s1 + (j * x.s0 + q.2.x * x.s1) := fun j => by rw [RV2.cell]; ring
    rw [e1]
    simp only [e2]
    rfl
  have k1 : ∀ q : D3 × D3, kSum1 c r.arr x.arr r.s0 x.s0 x.s1 x.n0 q.1 q.2 = sumThr c (r.cell (q.1.x * 1024 + q.2.x)) (fun j => x.cell j (q.1.x * 1024 + q.2.x)) x.n0 := fun q => by
    have e1 : r.cell (q.1.x * 1024 + q.2.x) = r.arr + (q.1.x * 1024 + q.2.x) * r.s0 := by rw [RV1.cell]; ring
    have e2 : ∀ j, x.cell j (q.1.x * 1024 + q.2.x) = x.arr + (j * x.s0 + (q.1.x * 1024 + q.2.x) * x.s1) := fun j => by rw [RV2.cell]; ring
    rw [e1]
    simp only [e2]
    rfl
  rw [sum0Into, decide_eq_true hr, Res.assrt_true, Res.ok_bind]
  split
  · refine ⟨_, rfl, ?_⟩
    have hc : Covers (⟨⟨1, 1, 1⟩, ⟨x.n1, 1, 1⟩, kSum0 c r.arr x.arr r.s0 x.s0 x.s1 x.n0⟩ : Launch α) (fun i => i < r.n0) (fun q => 0 + q.2.x) := by
      refine covers_box _ _ _ _ _ (fun i => (⟨0, 0, 0⟩, ⟨i, 0, 0⟩)) ?_ ?_ ?_ ?_ ?_ ?_ ?_ ?_
      all_goals box
    refine Ends.covers (S := fun i p => ∃ j, j < x.n0 ∧ p = x.cell j i) hc (fun q hq => ?_) inj hS
    have := k0 0 q
    simp only [Nat.zero_mul, Nat.add_zero] at this
    dsimp only
    rw [this]
    exact one _ (hc.mem q hq)
  · have c1 : ∀ N, N = x.n1 / 1024 * 1024 → Covers (⟨⟨x.n1 / 1024, 1, 1⟩, ⟨1024, 1, 1⟩, kSum1 c r.arr x.arr r.s0 x.s0 x.s1 x.n0⟩ : Launch α) (fun i => i < N) fun q => q.1.x * 1024 + q.2.x := by
      intro N hN
      refine covers_box _ _ _ _ _ (fun i => (⟨i / 1024, 0, 0⟩, ⟨i % 1024, 0, 0⟩)) ?_ ?_ ?_ ?_ ?_ ?_ ?_ ?_
      all_goals box
    refine ⟨_, rfl, ?_⟩
    split
    · have e : x.n1 - x.n1 % 1024 = x.n1 / 1024 * 1024 := by omega
      rw [e]
      have c2 : Covers (⟨⟨1, 1, 1⟩, ⟨x.n1 % 1024, 1, 1⟩, kSum0 c (r.arr + x.n1 / 1024 * 1024 * r.s0) (x.arr + x.n1 / 1024 * 1024 * x.s1) r.s0 x.s0 x.s1 x.n0⟩ : Launch α)
          (fun i => x.n1 / 1024 * 1024 ≤ i ∧ i < x.n1) fun q => x.n1 / 1024 * 1024 + q.2.x := by
        refine covers_box _ _ _ _ _ (fun i => (⟨0, 0, 0⟩, ⟨i - x.n1 / 1024 * 1024, 0, 0⟩)) ?_ ?_ ?_ ?_ ?_ ?_ ?_ ?_
        all_goals box
      refine Ends.cells2 (fun i => i < x.n1 / 1024 * 1024) _ _ _ _ (fun i p => ∃ j, j < x.n0 ∧ p = x.cell j i) _ _ (c1 _ rfl) c2 (fun i _ _ => by omega) (fun i => by omega) (fun q hq => ?_) (fun q hq => ?_) inj hS
      · dsimp only
        rw [k1 q]
        have := (c1 _ rfl).mem q hq
        exact one _ (by omega)
      · dsimp only
        rw [k0 _ q]
        have := c2.mem q hq
        exact one _ (by omega)
    · have e : x.n1 / 1024 * 1024 = x.n1 := by omega
      have c1' := c1 r.n0 (by omega)
      refine Ends.covers (S := fun i p => ∃ j, j < x.n0 ∧ p = x.cell j i) c1' (fun q hq => ?_) inj hS
      dsimp only
      rw [k1 q]
      exact one _ (c1'.mem q hq)

/-- Summing the rows of a matrix into a vector on the GPU. -/
theorem C413_sum [AddCommMonoid α] [Mul α] (r : RV1) (x : RV2) (m : Buf α) (a : Nat → α) (b : Nat → Nat → α) (hr : r.n0 = x.n1) (h1 : x.n1 ≤ 2147483647)
    (inj : ∀ i j, i < r.n0 → j < r.n0 → r.cell i = r.cell j → i = j) (apart : ∀ i j k, i < r.n0 → j < x.n0 → k < x.n1 → r.cell i ≠ x.cell j k)
    (ha : ∀ i, i < r.n0 → m (r.cell i) = some (a i)) (hb : ∀ j k, j < x.n0 → k < x.n1 → m (x.cell j k) = some (b j k)) :
    ∃ ls, sum0Into none r x = .ok ls ∧ Ends ls m fun m' => Upd m m' (fun i => i < r.n0) r.cell fun i => a i + ∑ j ∈ range x.n0, b j i := sum0_core none r x m a b hr h1 inj apart ha hb

/-- And a multiple of the sum. -/
theorem C413_sum_scaled [AddCommMonoid α] [Mul α] (c : α) (r : RV1) (x : RV2) (m : Buf α) (a : Nat → α) (b : Nat → Nat → α) (hr : r.n0 = x.n1) (h1 : x.n1 ≤ 2147483647)
    (inj : ∀ i j, i < r.n0 → j < r.n0 → r.cell i = r.cell j → i = j) (apart : ∀ i j k, i < r.n0 → j < x.n0 → k < x.n1 → r.cell i ≠ x.cell j k)
    (ha : ∀ i, i < r.n0 → m (r.cell i) = some (a i)) (hb : ∀ j k, j < x.n0 → k < x.n1 → m (x.cell j k) = some (b j k)) :
    ∃ ls, sum0Into (some c) r x = .ok ls ∧ Ends ls m fun m' => Upd m m' (fun i => i < r.n0) r.cell fun i => a i + (∑ j ∈ range x.n0, b j i) * c :=
  sum0_core (some c) r x m a b hr h1 inj apart ha hb

/-- A vector and a matrix of other sizes are refused. -/
theorem C413_refused [Zero α] [Add α] [Mul α] (c : Option α) (r : RV1) (x : RV2) (h : r.n0 ≠ x.n1) : sum0Into c r x = .throw := by
  rw [sum0Into, decide_eq_false h]
  rfl

/-- 1100 columns of three entries each, after the target. -/
example : (∀ i j, i < 1100 → j < 1100 → (⟨0, 1100, 1⟩ : RV1).cell i = (⟨0, 1100, 1⟩ : RV1).cell j → i = j) ∧
    ∀ i j k, i < 1100 → j < 3 → k < 1100 → (⟨0, 1100, 1⟩ : RV1).cell i ≠ (⟨1100, 3, 1100, 1100, 1⟩ : RV2).cell j k := by
  simp only [RV1.cell, RV2.cell]
  exact ⟨fun i j _ _ e => by omega, fun i j k _ _ _ => by omega⟩

/-- Summing the middle axis of a tensor with three axes into a matrix on the GPU, if the last axis has at most 1024 entries. -/
theorem C414_sum [AddCommMonoid α] (r : RV2) (x : RV3) (m : Buf α) (a : Nat × Nat → α) (b : Nat → Nat → Nat → α) (h0 : r.n0 = x.n0) (h1 : r.n1 = x.n2) (hn : x.n0 ≤ 2147483647) (h2 : x.n2 ≤ 1024)
    (inj : ∀ q q' : Nat × Nat, (q.1 < r.n0 ∧ q.2 < r.n1) → (q'.1 < r.n0 ∧ q'.2 < r.n1) → r.cell q.1 q.2 = r.cell q'.1 q'.2 → q = q')
    (apart : ∀ q : Nat × Nat, ∀ i j k, (q.1 < r.n0 ∧ q.2 < r.n1) → i < x.n0 → j < x.n1 → k < x.n2 → r.cell q.1 q.2 ≠ x.cell i j k)
    (ha : ∀ q : Nat × Nat, (q.1 < r.n0 ∧ q.2 < r.n1) → m (r.cell q.1 q.2) = some (a q)) (hb : ∀ i j k, i < x.n0 → j < x.n1 → k < x.n2 → m (x.cell i j k) = some (b i j k)) :
    ∃ ls, sum1Into r x = .ok ls ∧ Ends ls m fun m' => Upd m m' (fun q : Nat × Nat => q.1 < r.n0 ∧ q.2 < r.n1) (fun q => r.cell q.1 q.2) fun q => a q + ∑ j ∈ range x.n1, b q.1 j q.2 := by
  let _ : Mul α := ⟨fun a _ => a⟩
  rw [sum1Into, decide_eq_true h0, Res.assrt_true, Res.ok_bind, decide_eq_true h1, Res.assrt_true, Res.ok_bind, if_pos h2]
  refine ⟨_, rfl, ?_⟩
  have hc : Covers (⟨⟨x.n0, 1, 1⟩, ⟨x.n2, 1, 1⟩, kSum3 r.arr x.arr r.s0 r.s1 x.s0 x.s1 x.s2 x.n1⟩ : Launch α) (box2 r.n0 r.n1) (fun q => (q.1.x, q.2.x)) := by
    refine covers_box _ _ _ _ _ (fun i => (⟨i.1, 0, 0⟩, ⟨i.2, 0, 0⟩)) ?_ ?_ ?_ ?_ ?_ ?_ ?_ ?_
    all_goals box
  refine Ends.covers (S := fun i p => ∃ j, j < x.n1 ∧ p = x.cell i.1 j i.2) hc (fun q hq => ?_) inj fun i j hi hj _ => ?_
  · have hm := hc.mem q hq
    have e1 : r.cell q.1.x q.2.x = r.arr + (q.1.x * r.s0 + q.2.x * r.s1) := by rw [RV2.cell]; ring
    have e2 : ∀ j, x.cell q.1.x j q.2.x = x.arr + (q.1.x * x.s0 + j * x.s1 + q.2.x * x.s2) := fun j => by rw [RV3.cell]; ring
    have e : kSum3 (α := α) r.arr x.arr r.s0 r.s1 x.s0 x.s1 x.s2 x.n1 q.1 q.2 = sumThr none (r.cell q.1.x q.2.x) (fun j => x.cell q.1.x j q.2.x) x.n1 := by
      rw [e1]
      simp only [e2]
      rfl
    dsimp only
    rw [e]
    exact sumThr_one none _ _ _ m _ (fun j => b q.1.x j q.2.x) (ha _ hm) fun j hj => hb _ _ _ (h0 ▸ hm.1) hj (h1 ▸ hm.2)
  · rintro ⟨k, hk, e⟩
    exact apart i j.1 k j.2 hi (h0 ▸ hj.1) hk (h1 ▸ hj.2) e

example : (∀ q q' : Nat × Nat, (q.1 < 2 ∧ q.2 < 3) → (q'.1 < 2 ∧ q'.2 < 3) → (⟨0, 2, 3, 3, 1⟩ : RV2).cell q.1 q.2 = (⟨0, 2, 3, 3, 1⟩ : RV2).cell q'.1 q'.2 → q = q') ∧
    ∀ q : Nat × Nat, ∀ i j k, (q.1 < 2 ∧ q.2 < 3) → i < 2 → j < 4 → k < 3 → (⟨0, 2, 3, 3, 1⟩ : RV2).cell q.1 q.2 ≠ (⟨6, 2, 4, 3, 12, 3, 1⟩ : RV3).cell i j k := by
  simp only [RV2.cell, RV3.cell]
  exact ⟨fun q q' _ _ e => Prod.ext (by omega) (by omega), fun q i j k _ _ _ _ => by omega⟩

/-- With more entries nothing happens. -/
theorem C420_sum_fails [Zero α] [Add α] (r : RV2) (x : RV3) (h0 : r.n0 = x.n0) (h1 : r.n1 = x.n2) (h2 : 1024 < x.n2) : sum1Into (α := α) r x = .ok [] := by
  rw [sum1Into, decide_eq_true h0, Res.assrt_true, Res.ok_bind, decide_eq_true h1, Res.assrt_true, Res.ok_bind, if_neg (by omega)]

end Cnine
