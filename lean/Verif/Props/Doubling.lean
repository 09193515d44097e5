import Verif.Model.Doubling
import Verif.Spec.Doubling
import Verif.Lemmas.RtensorA
import Mathlib.Algebra.BigOperators.Intervals
import Mathlib.Tactic.Ring
import Mathlib.Tactic.Linarith

/-!
# Broadcasting by doubling, reducing by halving, symmetric indices

C389-C395.
-/

namespace Cnine

variable {α : Type}

open Doubling

/-! ### The loops that count -/

theorem upTo_ok (n : Nat) : ∀ fuel e s, 0 < e → n + 1 ≤ e + fuel → e = 2 ^ s → ∃ t, upTo n (fuel + 1) e s = .ok (2 ^ t, t) ∧ n < 2 ^ t ∧ (s = t ∨ 2 ^ t ≤ 2 * n) ∧ s ≤ t := by
  intro fuel
  induction fuel with
  | zero =>
    intro e s he hf h2
    refine ⟨s, ?_, by omega, .inl rfl, Nat.le_refl _⟩
    rw [upTo, if_neg (by omega), h2]
  | succ k ih =>
    intro e s he hf h2
    rw [upTo]
    split
    · next hle =>
      obtain ⟨t, h3, h4, h5, h6⟩ := ih (e * 2) (s + 1) (by omega) (by omega) (by rw [pow_succ, h2])
      refine ⟨t, h3, h4, .inr ?_, by omega⟩
      rcases h5 with h5 | h5
      · rw [← h5, pow_succ, ← h2]; omega
      · exact h5
    · exact ⟨s, by rw [h2], by omega, .inl rfl, Nat.le_refl _⟩

theorem below_ok (n : Nat) : ∀ fuel e s, 0 < e → n ≤ e + fuel → e = 2 ^ s → ∃ t, below n (fuel + 1) e s = .ok (2 ^ t, t) ∧ n ≤ 2 ^ t ∧ (s = t ∨ 2 ^ t < 2 * n) ∧ s ≤ t := by
  intro fuel
  induction fuel with
  | zero =>
    intro e s he hf h2
    refine ⟨s, ?_, by omega, .inl rfl, Nat.le_refl _⟩
    rw [below, if_neg (by omega), h2]
  | succ k ih =>
    intro e s he hf h2
    rw [below]
    split
    · next hle =>
      obtain ⟨t, h3, h4, h5, h6⟩ := ih (e * 2) (s + 1) (by omega) (by omega) (by rw [pow_succ, h2])
      refine ⟨t, h3, h4, .inr ?_, by omega⟩
      rcases h5 with h5 | h5
      · rw [← h5, pow_succ, ← h2]; omega
      · exact h5
    · exact ⟨s, by rw [h2], by omega, .inl rfl, Nat.le_refl _⟩

/-! ### Blocks -/

theorem apart_of {a b n : Nat} (h : ∀ i j, i < n → j < n → a + i ≠ b + j) : apart a b n = true := by
  simp only [apart, Bool.or_eq_true, decide_eq_true_eq]
  by_cases h0 : n = 0
  · exact .inl (.inl h0)
  · by_cases h1 : a + n ≤ b
    · exact .inl (.inr h1)
    · refine .inr ?_
      by_contra h2
      rcases Nat.le_total a b with h3 | h3
      · exact h (b - a) 0 (by omega) (by omega) (by omega)
      · exact h 0 (a - b) (by omega) (by omega) (by omega)

theorem memcpy_ok (m : Buf α) (dst src n : Nat) (B : Nat → α) (hA : ∀ i, i < n → (m (dst + i)).isSome) (hB : ∀ i, i < n → m (src + i) = some (B i)) (hc : Sep dst n src n) :
    ∃ m', memcpy m dst src n = .ok m' ∧ (∀ i, i < n → m' (dst + i) = some (B i)) ∧ ∀ c, (∀ i, i < n → c ≠ dst + i) → m' c = m c := by
  obtain ⟨m', e1, e2⟩ := stdCopy_ok m src n dst B hA hB fun i hi j hj => hc i j hi hj
  refine ⟨m', ?_, e2⟩
  rw [memcpy, apart_of hc, show Res.need true = .ok () from rfl, Res.ok_bind, e1]

theorem saxpy_ok [Add α] (m : Buf α) (n src dst : Nat) (A B : Nat → α) (hA : ∀ i, i < n → m (dst + i) = some (A i)) (hB : ∀ i, i < n → m (src + i) = some (B i))
    (hc : Sep dst n src n) :
    ∃ m', saxpy m n src dst = .ok m' ∧ (∀ i, i < n → m' (dst + i) = some (A i + B i)) ∧ ∀ c, (∀ i, i < n → c ≠ dst + i) → m' c = m c := by
  obtain ⟨m', e1, e2⟩ := stdAdd_ok (· + ·) m src n dst A B hA hB fun i hi j hj e => absurd e (hc i j hi hj)
  refine ⟨m', ?_, e2⟩
  rw [saxpy, apart_of hc, Bool.or_true, show Res.need true = .ok () from rfl, Res.ok_bind, e1]

theorem block_cell {c k : Nat} (n : Nat) (h : k < n * c) : k / c < n ∧ k % c < c ∧ k / c * c + k % c = k := by
  have hc : 0 < c := by rcases Nat.eq_zero_or_pos c with h0 | h0 <;> simp_all
  exact ⟨(Nat.div_lt_iff_lt_mul hc).2 h, Nat.mod_lt _ hc, by rw [Nat.mul_comm]; exact Nat.div_add_mod k c⟩

theorem block_lt' {c i j n : Nat} (hi : i < n) (hj : j < c) : i * c + j < n * c := by
  calc i * c + j < i * c + c := by omega
    _ = (i + 1) * c := by ring
    _ ≤ n * c := Nat.mul_le_mul_right _ hi

/-- The first blocks are copied behind themselves. -/
theorem copy_more (m : Buf α) (d c e r : Nat) (f : Nat → α) (hr : r ≤ e) (hf : Blocks m d c e fun _ => f) (hs : ∀ k, k < (e + r) * c → (m (d + k)).isSome) :
    ∃ m', memcpy m (d + e * c) d (r * c) = .ok m' ∧ Blocks m' d c (e + r) (fun _ => f) ∧ ∀ p, (∀ k, k < (e + r) * c → p ≠ d + k) → m' p = m p := by
  have hrc : r * c ≤ e * c := Nat.mul_le_mul_right _ hr
  obtain ⟨m', e1, e2, e3⟩ := memcpy_ok m (d + e * c) d (r * c) (fun k => f (k % c)) (fun i hi => by rw [Nat.add_assoc]; exact hs _ (by rw [Nat.add_mul]; omega))
    (fun i hi => by
      obtain ⟨h1, h2, h3⟩ := block_cell r hi
      have := hf (i / c) (i % c) (by omega) h2
      rwa [h3] at this)
    (fun i j hi hj => by omega)
  refine ⟨m', e1, fun i j hi hj => ?_, fun p hp => e3 p fun i hi => ?_⟩
  · by_cases h : i < e
    · have hb := block_lt' h hj
      rw [e3 _ fun k hk => by omega]
      exact hf i j h hj
    · have h1 : i * c = e * c + (i - e) * c := by rw [← Nat.add_mul]; congr 1; omega
      have hb := block_lt' (i := i - e) (n := r) (by omega) hj
      have := e2 ((i - e) * c + j) hb
      rw [show d + e * c + ((i - e) * c + j) = d + (i * c + j) by omega] at this
      rw [this, Nat.mul_add_mod', Nat.mod_eq_of_lt hj]
  · have := hp (e * c + i) (by rw [Nat.add_mul]; omega)
    omega

/-- Both parts hold the source in the first `e` blocks. -/
structure Doubling.Half (m0 m : Buf α) (d d' c n e : Nat) (f g : Nat → α) : Prop where
  re : Blocks m d c e fun _ => f
  im : Blocks m d' c e fun _ => g
  room : ∀ k, k < n * c → (m (d + k)).isSome ∧ (m (d' + k)).isSome
  only : Only2 m0 m d (n * c) d' (n * c)

theorem Doubling.Half.step {m0 m : Buf α} {d d' c n e r : Nat} {f g : Nat → α} (h : Half m0 m d d' c n e f g) (hr : r ≤ e) (hn : e + r ≤ n) (hs : Sep d (n * c) d' (n * c)) :
    ∃ m', (do let m ← memcpy m (d + e * c) d (r * c); memcpy m (d' + e * c) d' (r * c)) = .ok m' ∧ Half m0 m' d d' c n (e + r) f g := by
  have hnc : (e + r) * c ≤ n * c := Nat.mul_le_mul_right _ hn
  obtain ⟨m1, e1, b1, f1⟩ := copy_more m d c e r f hr h.re fun k hk => (h.room k (by omega)).1
  have k1 : ∀ k, k < n * c → m1 (d' + k) = m (d' + k) := fun k hk => f1 _ fun i hi e => hs i k (by omega) hk e.symm
  obtain ⟨m2, e2, b2, f2⟩ := copy_more m1 d' c e r g hr (fun i j hi hj => by
      have := block_lt' (n := n) (show i < n by omega) hj
      rw [k1 _ this]; exact h.im i j hi hj) fun k hk => by rw [k1 k (by omega)]; exact (h.room k (by omega)).2
  have k2 : ∀ k, k < n * c → m2 (d + k) = m1 (d + k) := fun k hk => f2 _ fun i hi => hs k i hk (by omega)
  refine ⟨m2, by rw [e1, Res.ok_bind, e2], fun i j hi hj => ?_, b2, fun k hk => ⟨?_, ?_⟩, fun p hp hp' => ?_⟩
  · have := block_lt' (n := n) (show i < n by omega) hj
    rw [k2 _ this]; exact b1 i j hi hj
  · rw [k2 k hk]
    by_cases hk' : k < (e + r) * c
    · obtain ⟨h1, h2, h3⟩ := block_cell _ hk'
      have := b1 _ _ h1 h2
      rw [h3] at this; rw [this]; rfl
    · rw [f1 _ fun i hi => by omega]; exact (h.room k hk).1
  · by_cases hk' : k < (e + r) * c
    · obtain ⟨h1, h2, h3⟩ := block_cell _ hk'
      have := b2 _ _ h1 h2
      rw [h3] at this; rw [this]; rfl
    · rw [f2 _ fun i hi => by omega, k1 k hk]; exact (h.room k hk).2
  · rw [f2 p fun k hk => hp' k (by omega), f1 p fun k hk => hp k (by omega)]
    exact h.only p hp hp'

/-! ### C389: broadcasting -/

/-- `BroadcastCopy_cfloat` puts the source into each of the `n` blocks of both parts, for any `n`, and changes nothing else. -/
theorem C389_broadcast_copy (m : Buf α) (d d' s s' c n : Nat) (f g : Nat → α) (hf : ∀ j, j < c → m (s + j) = some (f j)) (hg : ∀ j, j < c → m (s' + j) = some (g j))
    (hd : ∀ k, k < n * c → (m (d + k)).isSome ∧ (m (d' + k)).isSome) (h1 : Sep d (n * c) d' (n * c)) (h2 : Sep d (n * c) s c) (h3 : Sep d (n * c) s' c)
    (h4 : Sep d' (n * c) s' c) :
    ∃ m', broadcastCopy m d d' s s' c n = .ok m' ∧ Blocks m' d c n (fun _ => f) ∧ Blocks m' d' c n (fun _ => g) ∧ Only2 m m' d (n * c) d' (n * c) := by
  by_cases hn : n = 0
  · subst hn
    exact ⟨m, by rw [broadcastCopy, if_pos rfl], fun i j hi => absurd hi (by omega), fun i j hi => absurd hi (by omega), fun _ _ _ => rfl⟩
  have hc1 : 1 * c ≤ n * c := Nat.mul_le_mul_right _ (by omega)
  rw [Nat.one_mul] at hc1
  obtain ⟨t, e0, t1, t2, t3⟩ := upTo_ok n n 1 0 (by omega) (by omega) rfl
  have t4 : 1 ≤ t := by
    rcases Nat.eq_zero_or_pos t with h | h
    · subst h; omega
    · exact h
  have t5 : 2 ^ t = 2 ^ (t - 1) * 2 := by rw [← pow_succ]; congr 1; omega
  have t6 : 2 ^ (t - 1) ≤ n := by
    rcases t2 with h | h
    · omega
    · omega
  -- the first blocks
  obtain ⟨m1, e1, b1, f1⟩ := memcpy_ok m d s c f (fun i hi => (hd i (by omega)).1) hf fun i j hi hj => h2 i j (by omega) hj
  obtain ⟨m2, e2, b2, f2⟩ := memcpy_ok m1 d' s' c g (fun i hi => by rw [f1 _ fun k hk e => h1 k i (by omega) (by omega) e.symm]; exact (hd i (by omega)).2)
    (fun i hi => by rw [f1 _ fun k hk e => h3 k i (by omega) hi e.symm]; exact hg i hi) fun i j hi hj => h4 i j (by omega) hj
  have base : Half m m2 d d' c n (2 ^ 0) f g := by
    refine ⟨fun i j hi hj => ?_, fun i j hi hj => ?_, fun k hk => ⟨?_, ?_⟩, fun p hp hp' => ?_⟩
    · have : i = 0 := by simpa using hi
      subst this
      rw [Nat.zero_mul, Nat.zero_add, f2 _ fun k hk => h1 j k (by omega) (by omega)]; exact b1 j hj
    · have : i = 0 := by simpa using hi
      subst this
      rw [Nat.zero_mul, Nat.zero_add]; exact b2 j hj
    · rw [f2 _ fun i hi => h1 k i hk (by omega)]
      by_cases h : k < c
      · rw [b1 k h]; rfl
      · rw [f1 _ fun i hi => by omega]; exact (hd k hk).1
    · by_cases h : k < c
      · rw [b2 k h]; rfl
      · rw [f2 _ fun i hi => by omega, f1 _ fun i hi e => h1 i k (by omega) hk e.symm]; exact (hd k hk).2
    · rw [f2 p fun k hk => hp' k (by omega), f1 p fun k hk => hp k (by omega)]
  have mid : ∀ k, 2 ^ k ≤ n → ∃ mk, (loop k (m2, 1) fun _ (x : Buf α × Nat) => do
      let m ← memcpy x.1 (d + x.2 * c) d (x.2 * c)
      let m ← memcpy m (d' + x.2 * c) d' (x.2 * c)
      .ok (m, x.2 * 2)) = .ok (mk, 2 ^ k) ∧ Half m mk d d' c n (2 ^ k) f g := by
    intro k
    induction k with
    | zero => intro _; exact ⟨m2, rfl, base⟩
    | succ k ih =>
      intro hk
      rw [pow_succ] at hk
      obtain ⟨mk, e3, hm⟩ := ih (by omega)
      obtain ⟨m3, e4, hm3⟩ := hm.step (r := 2 ^ k) (Nat.le_refl _) (by omega) h1
      refine ⟨m3, ?_, by rw [pow_succ, Nat.mul_two]; exact hm3⟩
      rw [RA.loop_snoc, e3, Res.ok_bind]
      simp only
      obtain ⟨m4, e5, e6⟩ := Res.bind_eq_ok.1 e4
      rw [e5, Res.ok_bind, e6, Res.ok_bind, pow_succ]
  obtain ⟨m5, e5, h5⟩ := mid (t - 1) t6
  obtain ⟨m6, e6, h6⟩ := h5.step (r := n - 2 ^ (t - 1)) (by omega) (by omega) h1
  rw [show 2 ^ (t - 1) + (n - 2 ^ (t - 1)) = n by omega] at h6
  refine ⟨m6, ?_, h6.re, h6.im, h6.only⟩
  rw [broadcastCopy, if_neg hn, e0, Res.ok_bind]
  simp only
  rw [e1, Res.ok_bind, e2, Res.ok_bind, e5, Res.ok_bind]
  exact e6

/-- A memory with a source of two cells at 0 (and 2) and room for three blocks at 10 and 20. -/
def Doubling.demo : Buf Int := fun p => if p < 40 then some (p : Int) else none

example : ∃ m', broadcastCopy Doubling.demo 10 20 0 2 2 3 = .ok m' ∧ Blocks m' 10 2 3 (fun _ j => (j : Int)) ∧ Blocks m' 20 2 3 (fun _ j => (j : Int) + 2) ∧
    Only2 Doubling.demo m' 10 (3 * 2) 20 (3 * 2) :=
  C389_broadcast_copy Doubling.demo 10 20 0 2 2 3 _ _ (fun j hj => by simp [Doubling.demo]; omega) (fun j hj => by simp [Doubling.demo]; omega)
    (fun k hk => by simp [Doubling.demo]; omega) (fun i j _ _ => by omega) (fun i j _ _ => by omega) (fun i j _ _ => by omega) (fun i j _ _ => by omega)

/-! ### C390: adding the source to each block -/

theorem add_more [AddZeroClass α] (m : Buf α) (d c e r : Nat) (f : Nat → α) (hr : r ≤ e) (hf : Blocks m d c e fun _ => f)
    (hs : ∀ k, e * c ≤ k → k < (e + r) * c → m (d + k) = some 0) :
    ∃ m', saxpy m (r * c) d (d + e * c) = .ok m' ∧ Blocks m' d c (e + r) (fun _ => f) ∧ ∀ p, (∀ k, e * c ≤ k → k < (e + r) * c → p ≠ d + k) → m' p = m p := by
  have hrc : r * c ≤ e * c := Nat.mul_le_mul_right _ hr
  obtain ⟨m', e1, e2, e3⟩ := saxpy_ok m (r * c) d (d + e * c) (fun _ => 0) (fun k => f (k % c)) (fun i hi => by rw [Nat.add_assoc]; exact hs _ (by omega) (by rw [Nat.add_mul]; omega))
    (fun i hi => by
      obtain ⟨h1, h2, h3⟩ := block_cell r hi
      have := hf (i / c) (i % c) (by omega) h2
      rwa [h3] at this)
    (fun i j hi hj => by omega)
  refine ⟨m', e1, fun i j hi hj => ?_, fun p hp => e3 p fun i hi => ?_⟩
  · by_cases h : i < e
    · have hb := block_lt' h hj
      rw [e3 _ fun k hk => by omega]
      exact hf i j h hj
    · have h1 : i * c = e * c + (i - e) * c := by rw [← Nat.add_mul]; congr 1; omega
      have hb := block_lt' (i := i - e) (n := r) (by omega) hj
      have := e2 ((i - e) * c + j) hb
      rw [show d + e * c + ((i - e) * c + j) = d + (i * c + j) by omega, zero_add] at this
      rw [this, Nat.mul_add_mod', Nat.mod_eq_of_lt hj]
  · have := hp (e * c + i) (by omega) (by rw [Nat.add_mul]; omega)
    omega

/-- Both parts hold the source in the first `e` blocks and zeros behind. -/
structure Doubling.HalfZ [Zero α] (m0 m : Buf α) (d d' c n e : Nat) (f g : Nat → α) : Prop where
  re : Blocks m d c e fun _ => f
  im : Blocks m d' c e fun _ => g
  zero : ∀ k, e * c ≤ k → k < n * c → m (d + k) = some 0 ∧ m (d' + k) = some 0
  only : Only2 m0 m d (n * c) d' (n * c)

theorem Doubling.HalfZ.step [AddZeroClass α] {m0 m : Buf α} {d d' c n e r : Nat} {f g : Nat → α} (h : HalfZ m0 m d d' c n e f g) (hr : r ≤ e) (hn : e + r ≤ n)
    (hs : Sep d (n * c) d' (n * c)) :
    ∃ m', (do let m ← saxpy m (r * c) d (d + e * c); saxpy m (r * c) d' (d' + e * c)) = .ok m' ∧ HalfZ m0 m' d d' c n (e + r) f g := by
  have hnc : (e + r) * c ≤ n * c := Nat.mul_le_mul_right _ hn
  have hec : (e + r) * c = e * c + r * c := Nat.add_mul _ _ _
  obtain ⟨m1, e1, b1, f1⟩ := add_more m d c e r f hr h.re fun k hk hk' => (h.zero k hk (by omega)).1
  have k1 : ∀ k, k < n * c → m1 (d' + k) = m (d' + k) := fun k hk => f1 _ fun i _ hi e => hs i k (by omega) hk e.symm
  obtain ⟨m2, e2, b2, f2⟩ := add_more m1 d' c e r g hr (fun i j hi hj => by
      have := block_lt' (n := n) (show i < n by omega) hj
      rw [k1 _ this]; exact h.im i j hi hj) fun k hk hk' => by rw [k1 k (by omega)]; exact (h.zero k hk (by omega)).2
  have k2 : ∀ k, k < n * c → m2 (d + k) = m1 (d + k) := fun k hk => f2 _ fun i _ hi => hs k i hk (by omega)
  refine ⟨m2, by rw [e1, Res.ok_bind, e2], fun i j hi hj => ?_, b2, fun k hk hk' => ⟨?_, ?_⟩, fun p hp hp' => ?_⟩
  · have := block_lt' (n := n) (show i < n by omega) hj
    rw [k2 _ this]; exact b1 i j hi hj
  · rw [k2 k hk', f1 _ fun i _ hi => by omega]; exact (h.zero k (by omega) hk').1
  · rw [f2 _ fun i _ hi => by omega, k1 k hk']; exact (h.zero k (by omega) hk').2
  · rw [f2 p fun k _ hk => hp' k (by omega), f1 p fun k _ hk => hp k (by omega)]
    exact h.only p hp hp'

/-- `BroadcastAdd_cfloat` on blocks of zeros: each block gets the source.  Missing: blocks that hold something (see `C390_add_fails`). -/
theorem C390_broadcast_add_partial [AddZeroClass α] (m : Buf α) (d d' s s' c n : Nat) (f g : Nat → α) (hf : ∀ j, j < c → m (s + j) = some (f j))
    (hg : ∀ j, j < c → m (s' + j) = some (g j)) (hd : ∀ k, k < n * c → m (d + k) = some 0 ∧ m (d' + k) = some 0) (h1 : Sep d (n * c) d' (n * c))
    (h2 : Sep d (n * c) s c) (h3 : Sep d (n * c) s' c) (h4 : Sep d' (n * c) s' c) :
    ∃ m', broadcastAdd m d d' s s' c n = .ok m' ∧ Blocks m' d c n (fun _ j => 0 + f j) ∧ Blocks m' d' c n (fun _ j => 0 + g j) ∧ Only2 m m' d (n * c) d' (n * c) := by
  by_cases hn : n = 0
  · subst hn
    exact ⟨m, by rw [broadcastAdd, if_pos rfl], fun i j hi => absurd hi (by omega), fun i j hi => absurd hi (by omega), fun _ _ _ => rfl⟩
  have hc1 : 1 * c ≤ n * c := Nat.mul_le_mul_right _ (by omega)
  rw [Nat.one_mul] at hc1
  obtain ⟨t, e0, t1, t2, t3⟩ := upTo_ok n n 1 0 (by omega) (by omega) rfl
  have t4 : 1 ≤ t := by
    rcases Nat.eq_zero_or_pos t with h | h
    · subst h; omega
    · exact h
  have t5 : 2 ^ t = 2 ^ (t - 1) * 2 := by rw [← pow_succ]; congr 1; omega
  have t6 : 2 ^ (t - 1) ≤ n := by
    rcases t2 with h | h
    · omega
    · omega
  obtain ⟨m1, e1, b1, f1⟩ := saxpy_ok m c s d (fun _ => 0) f (fun i hi => (hd i (by omega)).1) hf fun i j hi hj => h2 i j (by omega) hj
  obtain ⟨m2, e2, b2, f2⟩ := saxpy_ok m1 c s' d' (fun _ => 0) g (fun i hi => by rw [f1 _ fun k hk e => h1 k i (by omega) (by omega) e.symm]; exact (hd i (by omega)).2)
    (fun i hi => by rw [f1 _ fun k hk e => h3 k i (by omega) hi e.symm]; exact hg i hi) fun i j hi hj => h4 i j (by omega) hj
  have base : HalfZ m m2 d d' c n (2 ^ 0) (fun j => 0 + f j) (fun j => 0 + g j) := by
    refine ⟨fun i j hi hj => ?_, fun i j hi hj => ?_, fun k hk hk' => ⟨?_, ?_⟩, fun p hp hp' => ?_⟩
    · have : i = 0 := by simpa using hi
      subst this
      rw [Nat.zero_mul, Nat.zero_add, f2 _ fun k hk => h1 j k (by omega) (by omega)]; exact b1 j hj
    · have : i = 0 := by simpa using hi
      subst this
      rw [Nat.zero_mul, Nat.zero_add]; exact b2 j hj
    · rw [pow_zero, Nat.one_mul] at hk
      rw [f2 _ fun i hi => h1 k i hk' (by omega), f1 _ fun i hi => by omega]; exact (hd k hk').1
    · rw [pow_zero, Nat.one_mul] at hk
      rw [f2 _ fun i hi => by omega, f1 _ fun i hi e => h1 i k (by omega) hk' e.symm]; exact (hd k hk').2
    · rw [f2 p fun k hk => hp' k (by omega), f1 p fun k hk => hp k (by omega)]
  have mid : ∀ k, 2 ^ k ≤ n → ∃ mk, (loop k (m2, 1) fun _ (x : Buf α × Nat) => do
      let m ← saxpy x.1 (x.2 * c) d (d + x.2 * c)
      let m ← saxpy m (x.2 * c) d' (d' + x.2 * c)
      .ok (m, x.2 * 2)) = .ok (mk, 2 ^ k) ∧ HalfZ m mk d d' c n (2 ^ k) (fun j => 0 + f j) (fun j => 0 + g j) := by
    intro k
    induction k with
    | zero => intro _; exact ⟨m2, rfl, base⟩
    | succ k ih =>
      intro hk
      rw [pow_succ] at hk
      obtain ⟨mk, e3, hm⟩ := ih (by omega)
      obtain ⟨m3, e4, hm3⟩ := hm.step (r := 2 ^ k) (Nat.le_refl _) (by omega) h1
      refine ⟨m3, ?_, by rw [pow_succ, Nat.mul_two]; exact hm3⟩
      rw [RA.loop_snoc, e3, Res.ok_bind]
      simp only
      obtain ⟨m4, e5, e6⟩ := Res.bind_eq_ok.1 e4
      rw [e5, Res.ok_bind, e6, Res.ok_bind, pow_succ]
  obtain ⟨m5, e5, h5⟩ := mid (t - 1) t6
  obtain ⟨m6, e6, h6⟩ := h5.step (r := n - 2 ^ (t - 1)) (by omega) (by omega) h1
  rw [show 2 ^ (t - 1) + (n - 2 ^ (t - 1)) = n by omega] at h6
  refine ⟨m6, ?_, h6.re, h6.im, h6.only⟩
  rw [broadcastAdd, if_neg hn, e0, Res.ok_bind]
  simp only
  rw [e1, Res.ok_bind, e2, Res.ok_bind, e5, Res.ok_bind]
  exact e6

example : ∃ m', broadcastAdd (fun p => if p < 2 then some (p + 5 : Int) else if p < 40 then some 0 else none) 10 20 0 1 1 3 = .ok m' ∧ m' 12 = some 5 ∧ m' 22 = some 6 ∧ m' 13 = some 0 :=
  ⟨_, rfl, rfl, rfl, rfl⟩

/-- What a cell holds after a run. -/
def Doubling.after (x : Res (Buf α)) (p : Nat) : Option α :=
  match x with
  | .ok m => m p
  | _ => none

/-- Two blocks that hold 10 and 11, source 0: the second block becomes 21 rather than 11. -/
theorem C390_add_fails : after (broadcastAdd Doubling.demo 10 20 0 1 1 2) 11 = some 21 ∧ Doubling.demo 11 = some 11 ∧ Doubling.demo 0 = some 0 := ⟨rfl, rfl, rfl⟩

/-! ### C391: sums of blocks -/

/-- Cell `j` summed over `n` blocks. -/
def Doubling.total [AddCommMonoid α] (A : Nat → α) (c n j : Nat) : α := ∑ i ∈ Finset.range n, A (i * c + j)

theorem fold_half [AddCommMonoid α] (m : Buf α) (s c e r : Nat) (A : Nat → α) (hr : r ≤ e) (hA : ∀ k, k < (e + r) * c → m (s + k) = some (A k)) :
    ∃ m' B, saxpy m (r * c) (s + e * c) s = .ok m' ∧ (∀ k, k < e * c → m' (s + k) = some (B k)) ∧ (∀ j, j < c → total B c e j = total A c (e + r) j) ∧
      ∀ p, (∀ k, k < (e + r) * c → p ≠ s + k) → m' p = m p := by
  have hrc : r * c ≤ e * c := Nat.mul_le_mul_right _ hr
  have hec : (e + r) * c = e * c + r * c := Nat.add_mul _ _ _
  obtain ⟨m', e1, e2, e3⟩ := saxpy_ok m (r * c) (s + e * c) s A (fun k => A (e * c + k)) (fun i hi => hA i (by omega)) (fun i hi => by rw [Nat.add_assoc]; exact hA _ (by omega))
    (fun i j hi hj => by omega)
  refine ⟨m', fun k => if k < r * c then A k + A (e * c + k) else A k, e1, fun k hk => ?_, fun j hj => ?_, fun p hp => e3 p fun i hi => hp i (by omega)⟩
  · beta_reduce
    split
    · next h => exact e2 k h
    · next h => rw [e3 _ fun i hi => by omega]; exact hA k (by omega)
  · unfold total
    have hlt : ∀ i, i * c + j < r * c ↔ i < r := fun i => by
      constructor
      · intro h
        by_contra h'
        have := Nat.mul_le_mul_right c (Nat.le_of_not_lt h')
        omega
      · intro h; exact block_lt' h hj
    have h1 : ∀ i ∈ Finset.range e, (if i * c + j < r * c then A (i * c + j) + A (e * c + (i * c + j)) else A (i * c + j)) = A (i * c + j) + (if i < r then A ((e + i) * c + j) else 0) := by
      intro i _
      by_cases h : i < r
      · rw [if_pos ((hlt i).2 h), if_pos h, Nat.add_mul, Nat.add_assoc]
      · rw [if_neg (fun h' => h ((hlt i).1 h')), if_neg h, add_zero]
    rw [Finset.sum_congr rfl h1, Finset.sum_add_distrib, Finset.sum_range_add]
    congr 1
    obtain ⟨q, rfl⟩ := Nat.exists_eq_add_of_le hr
    rw [Finset.sum_range_add, Finset.sum_congr rfl (g := fun i => A ((r + q + i) * c + j)) fun i hi => if_pos (Finset.mem_range.1 hi)]
    rw [Finset.sum_congr rfl (s₁ := Finset.range q) (g := fun _ => (0 : α)) fun i hi => if_neg (by omega), Finset.sum_const_zero, add_zero]

/-- The first `e` blocks of both parts have the sums of all. -/
structure Doubling.Sums [AddCommMonoid α] (m0 m : Buf α) (s s' c n e : Nat) (A A' : Nat → α) : Prop where
  re : ∃ B, (∀ k, k < e * c → m (s + k) = some (B k)) ∧ ∀ j, j < c → total B c e j = total A c n j
  im : ∃ B, (∀ k, k < e * c → m (s' + k) = some (B k)) ∧ ∀ j, j < c → total B c e j = total A' c n j
  only : Only2 m0 m s (n * c) s' (n * c)

theorem Doubling.Sums.step [AddCommMonoid α] {m0 m : Buf α} {s s' c n e r : Nat} {A A' : Nat → α} (h : Sums m0 m s s' c n (e + r) A A') (hr : r ≤ e) (hn : e + r ≤ n)
    (hs : Sep s (n * c) s' (n * c)) :
    ∃ m', (do let m ← saxpy m (r * c) (s + e * c) s; saxpy m (r * c) (s' + e * c) s') = .ok m' ∧ Sums m0 m' s s' c n e A A' := by
  have hnc : (e + r) * c ≤ n * c := Nat.mul_le_mul_right _ hn
  have hec : e * c ≤ (e + r) * c := Nat.mul_le_mul_right _ (by omega)
  obtain ⟨B, b1, b2⟩ := h.re
  obtain ⟨B', b1', b2'⟩ := h.im
  obtain ⟨m1, C, e1, c1, c2, f1⟩ := fold_half m s c e r B hr b1
  obtain ⟨m2, C', e2, c1', c2', f2⟩ := fold_half m1 s' c e r B' hr fun k hk => by rw [f1 _ fun i hi e => hs i k (by omega) (by omega) e.symm]; exact b1' k hk
  refine ⟨m2, by rw [e1, Res.ok_bind, e2], ⟨C, fun k hk => ?_, fun j hj => (c2 j hj).trans (b2 j hj)⟩, ⟨C', c1', fun j hj => (c2' j hj).trans (b2' j hj)⟩, fun p hp hp' => ?_⟩
  · rw [f2 _ fun i hi => hs k i (by omega) (by omega)]; exact c1 k hk
  · rw [f2 p fun k hk => hp' k (by omega), f1 p fun k hk => hp k (by omega)]
    exact h.only p hp hp'

/-- `ReduceAddDestroy_cfloat` adds to both parts of the destination the sum over the blocks, for any number of blocks but one; what the source holds afterwards is
not said, everything else is unchanged.  Missing: one block (see `C391_one_fails`). -/
theorem C391_reduce_partial [AddCommMonoid α] (m : Buf α) (d d' s s' c n : Nat) (hn1 : n ≠ 1) (A A' D D' : Nat → α) (hA : ∀ k, k < n * c → m (s + k) = some (A k))
    (hA' : ∀ k, k < n * c → m (s' + k) = some (A' k)) (hD : ∀ j, j < c → m (d + j) = some (D j)) (hD' : ∀ j, j < c → m (d' + j) = some (D' j))
    (h1 : Sep s (n * c) s' (n * c)) (h2 : Sep d c s (n * c)) (h3 : Sep d c s' (n * c)) (h4 : Sep d' c s (n * c)) (h5 : Sep d' c s' (n * c)) (h6 : Sep d c d' c) :
    ∃ m', reduceDestroy m d d' s s' c n = .ok m' ∧ (∀ j, j < c → m' (d + j) = some (D j + total A c n j)) ∧ (∀ j, j < c → m' (d' + j) = some (D' j + total A' c n j)) ∧
      ∀ p, (∀ k, k < n * c → p ≠ s + k ∧ p ≠ s' + k) → (∀ j, j < c → p ≠ d + j ∧ p ≠ d' + j) → m' p = m p := by
  by_cases hn : n = 0
  · subst hn
    refine ⟨m, by rw [reduceDestroy, if_pos rfl], fun j hj => ?_, fun j hj => ?_, fun _ _ _ => rfl⟩
    · rw [hD j hj]; simp [total]
    · rw [hD' j hj]; simp [total]
  obtain ⟨t, e0, t1, t2, t3⟩ := below_ok n n 1 0 (by omega) (by omega) rfl
  have t4 : 1 ≤ t := by
    rcases Nat.eq_zero_or_pos t with h | h
    · subst h; omega
    · exact h
  have t5 : 2 ^ t = 2 ^ (t - 1) * 2 := by rw [← pow_succ]; congr 1; omega
  have t6 : 2 ^ (t - 1) < n := by
    rcases t2 with h | h
    · omega
    · omega
  have hc1 : 1 * c ≤ n * c := Nat.mul_le_mul_right _ (by omega)
  rw [Nat.one_mul] at hc1
  have start : Sums m m s s' c n (2 ^ (t - 1) + (n - 2 ^ (t - 1))) A A' := by
    rw [show 2 ^ (t - 1) + (n - 2 ^ (t - 1)) = n by omega]
    exact ⟨⟨A, hA, fun _ _ => rfl⟩, ⟨A', hA', fun _ _ => rfl⟩, fun _ _ _ => rfl⟩
  obtain ⟨m1, e1, s1⟩ := start.step (by omega) (by omega) h1
  obtain ⟨m1', e1', e1''⟩ := Res.bind_eq_ok.1 e1
  have mid : ∀ k, k ≤ t - 1 → ∃ mk, (loop k (m1, 2 ^ (t - 1)) fun _ (x : Buf α × Nat) => do
      let m ← saxpy x.1 (x.2 / 2 * c) (s + x.2 / 2 * c) s
      let m ← saxpy m (x.2 / 2 * c) (s' + x.2 / 2 * c) s'
      .ok (m, x.2 / 2)) = .ok (mk, 2 ^ (t - 1 - k)) ∧ Sums m mk s s' c n (2 ^ (t - 1 - k)) A A' := by
    intro k
    induction k with
    | zero => intro _; exact ⟨m1, rfl, s1⟩
    | succ k ih =>
      intro hk
      obtain ⟨mk, e3, hm⟩ := ih (by omega)
      have hp : 2 ^ (t - 1 - k) = 2 ^ (t - 1 - (k + 1)) * 2 := by rw [← pow_succ]; congr 1; omega
      have hle : 2 ^ (t - 1 - k) ≤ 2 ^ (t - 1) := Nat.pow_le_pow_right (by omega) (by omega)
      rw [hp, Nat.mul_two] at hm
      obtain ⟨m3, e4, hm3⟩ := hm.step (Nat.le_refl _) (by omega) h1
      refine ⟨m3, ?_, hm3⟩
      rw [RA.loop_snoc, e3, Res.ok_bind]
      simp only
      rw [show 2 ^ (t - 1 - k) / 2 = 2 ^ (t - 1 - (k + 1)) by rw [hp]; omega]
      obtain ⟨m4, e5, e6⟩ := Res.bind_eq_ok.1 e4
      rw [e5, Res.ok_bind, e6, Res.ok_bind]
  obtain ⟨m5, e5, s5⟩ := mid (t - 1) (Nat.le_refl _)
  rw [Nat.sub_self, pow_zero] at s5
  obtain ⟨B, b1, b2⟩ := s5.re
  obtain ⟨B', b1', b2'⟩ := s5.im
  have tot : ∀ (B : Nat → α) j, total B c 1 j = B j := fun B j => by simp [total]
  have keep : ∀ j, j < c → m5 (d + j) = some (D j) := fun j hj => by rw [s5.only _ (fun i hi => h2 j i hj hi) (fun i hi => h3 j i hj hi)]; exact hD j hj
  have keep' : ∀ j, j < c → m5 (d' + j) = some (D' j) := fun j hj => by rw [s5.only _ (fun i hi => h4 j i hj hi) (fun i hi => h5 j i hj hi)]; exact hD' j hj
  obtain ⟨m6, e6, b6, f6⟩ := saxpy_ok m5 c s d D B keep (fun i hi => b1 i (by omega)) fun i j hi hj => h2 i j hi (by omega)
  obtain ⟨m7, e7, b7, f7⟩ := saxpy_ok m6 c s' d' D' B' (fun i hi => by rw [f6 _ fun k hk e => h6 k i hk hi e.symm]; exact keep' i hi)
    (fun i hi => by rw [f6 _ fun k hk e => h3 k i hk (by omega) e.symm]; exact b1' i (by omega)) fun i j hi hj => h5 i j hi (by omega)
  refine ⟨m7, ?_, fun j hj => ?_, fun j hj => ?_, fun p hp hp' => ?_⟩
  · rw [reduceDestroy, if_neg hn, e0, Res.ok_bind]
    simp only
    rw [show 2 ^ t / 2 = 2 ^ (t - 1) by rw [t5]; omega, e1', Res.ok_bind, e1'', Res.ok_bind, e5, Res.ok_bind]
    simp only
    rw [e6, Res.ok_bind, e7]
  · rw [f7 _ fun i hi => h6 j i hj hi, b6 j hj, ← b2 j hj, tot]
  · rw [b7 j hj, ← b2' j hj, tot]
  · rw [f7 p fun i hi => (hp' i hi).2, f6 p fun i hi => (hp' i hi).1]
    exact s5.only p (fun i hi => (hp i hi).1) fun i hi => (hp i hi).2

/-- One block: it is doubled before it is added. -/
theorem C391_one_fails : after (reduceDestroy Doubling.demo 30 31 10 20 1 1) 30 = some 50 ∧ Doubling.demo 30 = some 30 ∧ Doubling.demo 10 = some 10 := ⟨rfl, rfl, rfl⟩

example : ∃ m', reduceDestroy Doubling.demo 30 35 10 20 2 5 = .ok m' ∧ m' 30 = some (30 + (10 + 12 + 14 + 16 + 18)) := by
  obtain ⟨m', h1, h2, _⟩ := C391_reduce_partial Doubling.demo 30 35 10 20 2 5 (by decide) (fun k => (k : Int) + 10) (fun k => (k : Int) + 20) (fun k => (k : Int) + 30)
    (fun k => (k : Int) + 35) (fun k hk => by simp [demo]; omega) (fun k hk => by simp [demo]; omega) (fun k hk => by simp [demo]; omega) (fun k hk => by simp [demo]; omega)
    (fun i j _ _ => by omega) (fun i j _ _ => by omega) (fun i j _ _ => by omega) (fun i j _ _ => by omega) (fun i j _ _ => by omega) (fun i j _ _ => by omega)
  exact ⟨m', h1, h2 0 (by decide)⟩

/-! ### C392: sums that leave the source -/

/-- `ReduceAdd_cfloat` on two blocks: the destination gets the sum. -/
theorem C392_reduce_two_partial [AddCommMonoid α] (junk : Nat → α) (b : Nat) (m : Buf α) (d d' s s' c : Nat) (A A' D D' : Nat → α) (hA : ∀ k, k < 2 * c → m (s + k) = some (A k))
    (hA' : ∀ k, k < 2 * c → m (s' + k) = some (A' k)) (hD : ∀ j, j < c → m (d + j) = some (D j)) (hD' : ∀ j, j < c → m (d' + j) = some (D' j))
    (hb : ∀ k, k < 2 * c → m (b + k) = none) (h6 : Sep d c d' c) :
    ∃ m', reduceAdd junk b m d d' s s' c 2 = .ok m' ∧ (∀ j, j < c → m' (d + j) = some (D j + (A j + A (c + j)))) ∧ (∀ j, j < c → m' (d' + j) = some (D' j + (A' j + A' (c + j)))) ∧
      ∀ p, (∀ k, k < 2 * c → p ≠ b + k) → (∀ j, j < c → p ≠ d + j ∧ p ≠ d' + j) → m' p = m p := by
  have ne : ∀ p v, m p = some v → ∀ k, k < 2 * c → p ≠ b + k := fun p v hp k hk e => by rw [e, hb k hk] at hp; cases hp
  let m1 : Buf α := fun p => if b ≤ p ∧ p < b + 2 * 1 * c then some (junk p) else m p
  have k1 : ∀ p, (∀ k, k < 2 * c → p ≠ b + k) → m1 p = m p := fun p hp => if_neg fun h => hp (p - b) (by omega) (by omega)
  have j1 : ∀ k, k < 2 * c → (m1 (b + k)).isSome := fun k hk => by rw [show m1 (b + k) = some (junk (b + k)) from if_pos ⟨by omega, by omega⟩]; rfl
  obtain ⟨m2, e2, b2, f2⟩ := memcpy_ok m1 b s (1 * c) A (fun i hi => j1 i (by omega)) (fun i hi => by rw [k1 _ (ne _ _ (hA i (by omega)))]; exact hA i (by omega))
    fun i j hi hj e => ne _ _ (hA j (by omega)) i (by omega) e.symm
  have k2 : ∀ p v, m p = some v → m2 p = some v := fun p v hp => by rw [f2 p fun i hi => ne p v hp i (by omega), k1 p (ne p v hp), hp]
  obtain ⟨m3, e3, b3, f3⟩ := memcpy_ok m2 (b + 1 * c) s' (1 * c) A' (fun i hi => by rw [f2 _ fun k hk => by omega, Nat.add_assoc]; exact j1 _ (by omega)) (fun i hi => k2 _ _ (hA' i (by omega)))
    fun i j hi hj e => ne _ _ (hA' j (by omega)) (1 * c + i) (by omega) (by omega)
  have k3 : ∀ p v, m p = some v → m3 p = some v := fun p v hp => by rw [f3 p fun i hi e => ne p v hp (1 * c + i) (by omega) (by omega)]; exact k2 p v hp
  obtain ⟨m4, e4, b4, f4⟩ := saxpy_ok m3 ((2 - 1) * c) (s + 1 * c) b A (fun k => A (c + k)) (fun i hi => by rw [f3 _ fun k hk => by omega]; exact b2 i (by omega))
    (fun i hi => by rw [Nat.add_assoc, Nat.one_mul]; exact k3 _ _ (hA _ (by omega))) fun i j hi hj e => ne _ _ (hA (c + j) (by omega)) i (by omega) (by omega)
  have k4 : ∀ p v, m p = some v → m4 p = some v := fun p v hp => by rw [f4 p fun i hi e => ne p v hp i (by omega) (by omega)]; exact k3 p v hp
  obtain ⟨m5, e5, b5, f5⟩ := saxpy_ok m4 ((2 - 1) * c) (s' + 1 * c) (b + 1 * c) A' (fun k => A' (c + k)) (fun i hi => by rw [f4 _ fun k hk => by omega]; exact b3 i (by omega))
    (fun i hi => by rw [Nat.add_assoc, Nat.one_mul]; exact k4 _ _ (hA' _ (by omega))) fun i j hi hj e => ne _ _ (hA' (c + j) (by omega)) (c + i) (by omega) (by omega)
  have k5 : ∀ p v, m p = some v → m5 p = some v := fun p v hp => by rw [f5 p fun i hi e => ne p v hp (c + i) (by omega) (by omega)]; exact k4 p v hp
  obtain ⟨m6, e6, b6, f6⟩ := saxpy_ok m5 c b d D (fun j => A j + A (c + j)) (fun i hi => k5 _ _ (hD i hi)) (fun i hi => by rw [f5 _ fun k hk => by omega]; exact b4 i (by omega))
    fun i j hi hj e => ne _ _ (hD i hi) j (by omega) e
  obtain ⟨m7, e7, b7, f7⟩ := saxpy_ok m6 c (b + 1 * c) d' D' (fun j => A' j + A' (c + j)) (fun i hi => by rw [f6 _ fun k hk e => h6 k i hk hi e.symm]; exact k5 _ _ (hD' i hi))
    (fun i hi => by rw [f6 _ fun k hk e => ne _ _ (hD k hk) (c + i) (by omega) (by omega)]; exact b5 i (by omega)) fun i j hi hj e => ne _ _ (hD' i hi) (c + j) (by omega) (by omega)
  refine ⟨m7, ?_, fun j hj => ?_, fun j hj => b7 j hj, fun p hp hp' => ?_⟩
  · rw [reduceAdd, if_neg (by decide), show below 2 (2 + 1) 1 0 = .ok (2, 1) from rfl, Res.ok_bind]
    simp only [show 2 / 2 = 1 from rfl]
    change (memcpy m1 b s (1 * c) >>= _) = _
    rw [e2, Res.ok_bind, e3, Res.ok_bind, e4, Res.ok_bind, e5, Res.ok_bind, show (1 - 1) = 0 from rfl]
    change (saxpy m5 c b d >>= _) = _
    rw [e6, Res.ok_bind, e7]
  · rw [f7 _ fun i hi => h6 j i hj hi, b6 j hj]
  · rw [f7 p fun i hi => (hp' i hi).2, f6 p fun i hi => (hp' i hi).1, f5 p fun i hi e => hp (c + i) (by omega) (by omega), f4 p fun i hi => hp i (by omega),
      f3 p fun i hi e => hp (c + i) (by omega) (by omega), f2 p fun i hi => hp i (by omega), k1 p hp]

example : after (reduceAdd (fun _ => (0 : Int)) 50 Doubling.demo 30 31 10 20 1 2) 30 = some (30 + (10 + 11)) ∧ after (reduceAdd (fun _ => (0 : Int)) 50 Doubling.demo 30 31 10 20 1 2) 31 = some (31 + (20 + 21)) :=
  ⟨rfl, rfl⟩

/-- One block is added to a buffer of no cells. -/
theorem C392_one_fails : reduceAdd (fun _ => (0 : Int)) 50 Doubling.demo 30 31 10 20 1 1 = .ub := rfl

/-- Three blocks: the imaginary part of the first two is added to the real part. -/
theorem C392_three_fails : after (reduceAdd (fun _ => (0 : Int)) 50 Doubling.demo 30 31 10 20 1 3) 30 ≠ some (30 + (10 + 11 + 12)) := by
  have : after (reduceAdd (fun _ => (0 : Int)) 50 Doubling.demo 30 31 10 20 1 3) 30 = some (30 + (10 + 12 + (20 + 22))) := rfl
  rw [this]; decide

/-! ### C393: places of unordered pairs -/

open IxSymm

theorem tri_even (a : Nat) : a * (a + 1) / 2 * 2 = a * (a + 1) := Nat.div_mul_cancel (Nat.even_mul_succ_self a).two_dvd

theorem at2_le (n i j : Nat) (h : i ≤ j) : at2 n i j = ((i * n + j : Nat) : Int) - ((i * (i + 1) / 2 : Nat) : Int) := by
  simp only [at2]
  rw [if_pos (by omega), if_pos (by omega)]
  have : Int.tdiv ((i : Int) * ((i : Int) + 1)) 2 = ((i * (i + 1) / 2 : Nat) : Int) := by
    rw [show ((i : Int) * ((i : Int) + 1)) = ((i * (i + 1) : Nat) : Int) by push_cast; rfl]
    rfl
  rw [this]; push_cast; ring

/-- The order of the two indices does not matter. -/
theorem C393_symmetric (n i j : Int) : at2 n i j = at2 n j i := by
  simp only [at2]
  by_cases h : i = j
  · rw [h]
  · by_cases h' : i ≤ j
    · rw [if_pos h', if_pos h', if_neg (by omega), if_neg (by omega)]
    · rw [if_neg h', if_neg h', if_pos (by omega), if_pos (by omega)]

/-- The first place of row `i`: the rows before have `n`, `n-1`, ... places. -/
def IxSymm.first (n : Nat) : Nat → Nat
  | 0 => 0
  | i + 1 => IxSymm.first n i + (n - i)

theorem first_eq (n i : Nat) (h : i ≤ n) : 2 * IxSymm.first n i + i * i = 2 * (i * n) + i := by
  induction i with
  | zero => simp [IxSymm.first]
  | succ i ih =>
    have := ih (by omega)
    obtain ⟨q, rfl⟩ := Nat.exists_eq_add_of_le (show i ≤ n by omega)
    rw [IxSymm.first, show i + q - i = q by omega]
    nlinarith

theorem first_mono (n : Nat) {i j : Nat} (h : i ≤ j) : IxSymm.first n i ≤ IxSymm.first n j := by
  induction h with
  | refl => exact Nat.le_refl _
  | step _ ih => exact Nat.le_trans ih (by rw [IxSymm.first]; omega)

theorem at2_first (n i j : Nat) (h : i ≤ j) (hj : j < n) : at2 n i j = ((IxSymm.first n i + (j - i) : Nat) : Int) := by
  rw [at2_le n i j h]
  have h1 := first_eq n i (by omega)
  have h2 := tri_even i
  have h3 : i * (i + 1) = i * i + i := by ring
  omega

/-- The places of unordered pairs of `n` indices are `0 .. n(n+1)/2`. -/
theorem C393_range (n i j : Nat) (hi : i < n) (hj : j < n) : 0 ≤ at2 n i j ∧ at2 n i j < ((n * (n + 1) / 2 : Nat) : Int) := by
  have key : ∀ i j : Nat, i ≤ j → j < n → 0 ≤ at2 n i j ∧ at2 n i j < ((n * (n + 1) / 2 : Nat) : Int) := fun i j h hj => by
    rw [at2_first n i j h hj]
    have h1 := first_eq n n (Nat.le_refl _)
    have h2 := first_mono n (show i + 1 ≤ n by omega)
    rw [IxSymm.first] at h2
    have h3 := tri_even n
    have h4 : n * (n + 1) = n * n + n := by ring
    omega
  rcases Nat.le_total i j with h | h
  · exact key i j h hj
  · rw [C393_symmetric]; exact key j i h hi

/-- Different pairs have different places. -/
theorem C393_injective (n i j i' j' : Nat) (h : i ≤ j) (hj : j < n) (h' : i' ≤ j') (hj' : j' < n) (e : at2 n i j = at2 n i' j') : i = i' ∧ j = j' := by
  rw [at2_first n i j h hj, at2_first n i' j' h' hj'] at e
  have key : ∀ i j i' j' : Nat, i ≤ j → j < n → i' ≤ j' → i < i' → IxSymm.first n i + (j - i) ≠ IxSymm.first n i' + (j' - i') := fun i j i' j' h hj h' hlt e => by
    have := first_mono n (show i + 1 ≤ i' from hlt)
    rw [IxSymm.first] at this
    omega
  rcases Nat.lt_trichotomy i i' with hlt | heq | hlt
  · exact absurd (by exact_mod_cast e) (key i j i' j' h hj h' hlt)
  · subst heq
    exact ⟨rfl, by omega⟩
  · exact absurd (by exact_mod_cast e.symm) (key i' j' i j h' hj' h hlt)

/-- Every place is used. -/
theorem C393_surjective (n p : Nat) (hp : p < n * (n + 1) / 2) : ∃ i j : Nat, i ≤ j ∧ j < n ∧ at2 n i j = (p : Int) := by
  have h1 := first_eq n n (Nat.le_refl _)
  have h3 := tri_even n
  have h4 : n * (n + 1) = n * n + n := by ring
  have hlast : p < IxSymm.first n n := by omega
  have : ∀ k, k ≤ n → p < IxSymm.first n k → ∃ i, i < k ∧ IxSymm.first n i ≤ p ∧ p < IxSymm.first n (i + 1) := by
    intro k
    induction k with
    | zero => intro _ h; simp [IxSymm.first] at h
    | succ k ih =>
      intro hk h
      by_cases hlt : p < IxSymm.first n k
      · obtain ⟨i, a, b⟩ := ih (by omega) hlt
        exact ⟨i, by omega, b⟩
      · exact ⟨k, by omega, by omega, h⟩
  obtain ⟨i, a, b, c⟩ := this n (Nat.le_refl _) hlast
  rw [IxSymm.first] at c
  refine ⟨i, i + (p - IxSymm.first n i), by omega, by omega, ?_⟩
  rw [at2_first _ _ _ (by omega) (by omega)]
  push_cast
  omega

example : at2 4 1 3 = 6 ∧ at2 4 3 1 = 6 ∧ at2 4 3 3 = 9 ∧ 4 * (4 + 1) / 2 = 10 := by decide

/-! ### C394: places of longer symmetric indices -/

/-- One index or two in order: different indices have different places.  Missing: longer indices (see `C394_long_fails`). -/
theorem C394_short_partial (n : Nat) (a b : List Nat) (ha : a.SortedLE) (hb : b.SortedLE) (hl : a.length = b.length) (h1 : 1 ≤ a.length) (h2 : a.length ≤ 2) (ra : ∀ i ∈ a, i < n)
    (rb : ∀ i ∈ b, i < n) (e : atIx n (a.map Int.ofNat) = atIx n (b.map Int.ofNat)) : a = b := by
  match a, b, hl, h1, h2 with
  | [i], [j], _, _, _ =>
    simp only [List.map_cons, List.map_nil, atIx, Res.ok.injEq, Int.ofNat.injEq] at e
    rw [e]
  | [i, j], [i', j'], _, _, _ =>
    simp only [List.map_cons, List.map_nil, atIx, Res.ok.injEq] at e
    obtain ⟨r1, r2⟩ := C393_injective n i j i' j' (by simpa using ha.pairwise) (ra j (by simp)) (by simpa using hb.pairwise) (rb j' (by simp)) e
    rw [r1, r2]

example : atIx 4 ([1, 3].map Int.ofNat) = .ok 6 ∧ atIx 4 ([2, 3].map Int.ofNat) = .ok 8 ∧ [1, 3].SortedLE := ⟨rfl, rfl, by decide⟩

/-- All triples have the same place; of four indices only the first counts. -/
theorem C394_long_fails (n i j k i' j' k' l l' : Int) : atIx n [i, j, k] = atIx n [i', j', k'] ∧ atIx n [i, j, k, l] = atIx n [i, j', k', l'] := ⟨rfl, rfl⟩

/-! ### C395: places of fused indices -/

/-- `GindexFuser` with two and three indices: the row-major place. -/
theorem C395_fused (n0 n1 n2 i0 i1 i2 : Nat) (h0 : i0 < n0) (h1 : i1 < n1) (h2 : i2 < n2) :
    fuse2 n1 i0 i1 = (position [n0, n1] [i0, i1] : Int) ∧ fuse3 n1 n2 i0 i1 i2 = (position [n0, n1, n2] [i0, i1, i2] : Int) ∧
      position [n0, n1] [i0, i1] < n0 * n1 ∧ position [n0, n1, n2] [i0, i1, i2] < n0 * n1 * n2 := by
  have a := position_lt (.cons h0 (.cons h1 .nil) : InRange [i0, i1] [n0, n1])
  have b := position_lt (.cons h0 (.cons h1 (.cons h2 .nil)) : InRange [i0, i1, i2] [n0, n1, n2])
  refine ⟨?_, ?_, by simpa using a, by simpa [Nat.mul_assoc] using b⟩
  · simp [fuse2, position]
  · simp [fuse3, position]; ring

example : fuse3 3 4 1 2 3 = 23 ∧ position [2, 3, 4] [1, 2, 3] = 23 := by decide

end Cnine
