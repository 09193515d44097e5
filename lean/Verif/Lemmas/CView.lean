import Verif.Spec.CView
import Verif.Lemmas.RView3
import Mathlib.Algebra.Ring.Basic
import Mathlib.Tactic.Ring

/-! Loops over the complex entries of strided views. -/

namespace Cnine

variable {α : Type}

namespace Cx

theorem zero_def [Zero α] : (0 : Cx α) = ⟨0, 0⟩ := rfl
theorem add_def [Add α] (a b : Cx α) : a + b = ⟨a.re + b.re, a.im + b.im⟩ := rfl
theorem mul_def [Add α] [Sub α] [Mul α] (a b : Cx α) : a * b = ⟨a.re * b.re - a.im * b.im, a.re * b.im + a.im * b.re⟩ := rfl

instance [AddCommMonoid α] : AddCommMonoid (Cx α) where
  add_assoc a b c := by simp only [add_def, add_assoc]
  zero_add a := by simp only [add_def, zero_def, zero_add]
  add_zero a := by simp only [add_def, zero_def, add_zero]
  add_comm a b := by simp only [add_def, add_comm]
  nsmul := nsmulRec

end Cx

theorem getC_ok {p q : Nat} {m : Buf α} {a : Cx α} (h1 : m p = some a.re) (h2 : m q = some a.im) : getC p q m = .ok a := by
  simp [getC, Buf.read, h1, h2]

/-- Writing the two parts to different allocated cells. -/
theorem setC_ok {p q : Nat} {m : Buf α} (hp : (m p).isSome) (hq : (m q).isSome) (hpq : p ≠ q) (x : Cx α) :
    setC p q x m = .ok (fun c => if c = p then some x.re else if c = q then some x.im else m c) := by
  obtain ⟨a, ha⟩ := Option.isSome_iff_exists.1 hp
  obtain ⟨b, hb⟩ := Option.isSome_iff_exists.1 hq
  simp only [setC, Buf.write, ha, Res.ok_bind]
  simp only [hpq.symm, if_false, hb]
  congr 1
  funext c
  by_cases h1 : c = q
  · subst h1; simp [hpq.symm]
  · simp [h1]

theorem incC_ok [Add α] {p q : Nat} {m : Buf α} {a : Cx α} (hp : m p = some a.re) (hq : m q = some a.im) (hpq : p ≠ q) (x : Cx α) :
    incC p q x m = setC p q (a + x) m := by
  simp only [incC, incCell, setC, Buf.read, hp, Res.ok_bind, Buf.write]
  simp only [hpq.symm, if_false, hq, Res.ok_bind]
  rfl

theorem csum_ok [AddCommMonoid α] (n : Nat) (term : Nat → Buf α → Res (Cx α)) (m : Buf α) (T : Nat → Cx α)
    (h : ∀ i, i < n → term i m = .ok (T i)) : csum n term m = .ok (((List.range n).map T).sum) := by
  induction n with
  | zero => rfl
  | succ n ih =>
    have e : csum (n + 1) term m = (csum n term m >>= fun t => (term n m >>= fun a => .ok (t + a))) := by
      simp only [csum, loop, List.range_succ, Res.forM_append]
      congr 1
      funext t
      rw [Res.forM_cons]
      simp only [Res.forM_nil]
      cases term n m <;> rfl
    rw [e, ih fun i hi => h i (by omega), Res.ok_bind, h n (by omega), Res.ok_bind, List.range_succ, List.map_append, List.sum_append]
    simp

/-- A loop each round of which stores a complex number in two cells of its own. -/
theorem ccells_run {ι : Type} (l : List ι) (P Q : ι → Nat) (new : ι → Cx α) (step : Buf α → ι → Res (Buf α))
    (m0 : Buf α) (hnd : l.Nodup) (hP : ∀ i ∈ l, ∀ j ∈ l, P i = P j → i = j) (hQ : ∀ i ∈ l, ∀ j ∈ l, Q i = Q j → i = j)
    (hPQ : ∀ i ∈ l, ∀ j ∈ l, P i ≠ Q j)
    (halloc : ∀ i ∈ l, (m0 (P i)).isSome ∧ (m0 (Q i)).isSome)
    (hstep : ∀ i ∈ l, ∀ m : Buf α, (∀ c, (∀ j ∈ l, j ≠ i → c ≠ P j ∧ c ≠ Q j) → m c = m0 c) →
      step m i = setC (P i) (Q i) (new i) m) :
    ∃ m', Res.forM l m0 step = .ok m' ∧ (∀ i ∈ l, m' (P i) = some (new i).re ∧ m' (Q i) = some (new i).im) ∧
      ∀ c, (∀ i ∈ l, c ≠ P i ∧ c ≠ Q i) → m' c = m0 c := by
  obtain ⟨m', h1, h2, h3⟩ := forM_regions l step (fun i c => c = P i ∨ c = Q i)
    (fun i c => if c = P i then some (new i).re else some (new i).im) m0 hnd
    (by
      rintro i hi j hj hij c (rfl | rfl) (e | e)
      · exact hij (hP i hi j hj e)
      · exact hPQ i hi j hj e
      · exact hPQ j hj i hi e.symm
      · exact hij (hQ i hi j hj e))
    (by
      intro i hi m hm
      have e1 : m (P i) = m0 (P i) := hm _ fun j hj hji e => by
        rcases e with e | e
        · exact hji (hP j hj i hi e.symm)
        · exact hPQ i hi j hj e
      have e2 : m (Q i) = m0 (Q i) := hm _ fun j hj hji e => by
        rcases e with e | e
        · exact hPQ j hj i hi e.symm
        · exact hji (hQ j hj i hi e.symm)
      refine ⟨fun c => if c = P i then some (new i).re else if c = Q i then some (new i).im else m c, ?_, ?_, ?_⟩
      · rw [hstep i hi m fun c hc => hm c fun j hj hji => by have := hc j hj hji; tauto]
        exact setC_ok (by rw [e1]; exact (halloc i hi).1) (by rw [e2]; exact (halloc i hi).2) (hPQ i hi i hi) _
      · rintro c (rfl | rfl)
        · simp
        · simp [(hPQ i hi i hi).symm]
      · intro c hc; simp only [not_or] at hc; simp [hc.1, hc.2])
  refine ⟨m', h1, fun i hi => ⟨?_, ?_⟩, fun c hc => h3 c fun i hi => by have := hc i hi; tauto⟩
  · rw [h2 i hi _ (.inl rfl)]; simp
  · rw [h2 i hi _ (.inr rfl)]; simp [(hPQ i hi i hi).symm]

/-- Index quadruples. -/
def idx4 (n0 n1 n2 n3 : Nat) : List (Nat × Nat × Nat × Nat) := List.range n0 ×ˢ idx3 n1 n2 n3

theorem mem_idx4 {n0 n1 n2 n3 : Nat} {p : Nat × Nat × Nat × Nat} :
    p ∈ idx4 n0 n1 n2 n3 ↔ p.1 < n0 ∧ p.2.1 < n1 ∧ p.2.2.1 < n2 ∧ p.2.2.2 < n3 := by
  obtain ⟨a, b⟩ := p
  simp only [idx4, List.mem_product, List.mem_range, mem_idx3]

theorem nodup_idx4 (n0 n1 n2 n3 : Nat) : (idx4 n0 n1 n2 n3).Nodup := List.nodup_range.product (nodup_idx3 _ _ _)

theorem loop4_eq {σ} (n0 n1 n2 n3 : Nat) (s : σ) (f : Nat → Nat → Nat → Nat → σ → Res σ) :
    loop n0 s (fun i s => loop n1 s fun j s => loop n2 s fun k s => loop n3 s fun l s => f i j k l s) =
      Res.forM (idx4 n0 n1 n2 n3) s (fun s p => f p.1 p.2.1 p.2.2.1 p.2.2.2 s) := by
  have e : ∀ i s, (loop n1 s fun j s => loop n2 s fun k s => loop n3 s fun l s => f i j k l s) =
      Res.forM (idx3 n1 n2 n3) s (fun s p => f i p.1 p.2.1 p.2.2 s) := fun i s => loop3_eq n1 n2 n3 s (f i)
  unfold idx4
  show _ = Res.forM (List.product _ _) _ _
  unfold List.product
  rw [forM_flatMap]
  simp only [forM_map]
  exact loop_congr _ _ _ _ fun i _ s => e i s

namespace CV1

theorem not_cov {v : CV1} {c : Nat} :
    ¬ v.Cov c ↔ ∀ i, i < v.n0 → c ≠ v.arr + v.off i ∧ c ≠ v.arrc + v.off i := by
  constructor
  · intro h i hi
    exact ⟨fun e => h ⟨i, hi, .inl e⟩, fun e => h ⟨i, hi, .inr e⟩⟩
  · rintro h ⟨i, hi, e⟩
    have := h i hi
    tauto

/-- A loop over all entries that stores one entry per round. -/
theorem run (v : CV1) (hs : v.Sep) (m0 : Buf α) (R : Nat → Cx α) (hR : v.Has m0 R) (new : Nat → Cx α)
    (step : Nat → Buf α → Res (Buf α))
    (hstep : ∀ i, i < v.n0 → ∀ m : Buf α,
      (∀ z, (∀ a, a < v.n0 → ¬ (a = i) → z ≠ v.arr + v.off a ∧ z ≠ v.arrc + v.off a) → m z = m0 z) →
      step i m = setC (v.arr + v.off i) (v.arrc + v.off i) (new i) m) :
    ∃ m', (loop v.n0 m0 fun i m => step i m) = .ok m' ∧ v.Has m' new ∧ ∀ c, ¬ v.Cov c → m' c = m0 c := by
  obtain ⟨m', h1, h2, h3⟩ := ccells_run (List.range v.n0) (fun p => v.arr + v.off p) (fun p => v.arrc + v.off p)
    (fun p => new p) (fun m p => step p m) m0 List.nodup_range
    (by
      intro p hp q hq e
      rw [List.mem_range] at hp hq
      have e := (hs _ hp _ hq).1 (Nat.add_left_cancel e)
      exact e)
    (by
      intro p hp q hq e
      rw [List.mem_range] at hp hq
      have e := (hs _ hp _ hq).1 (Nat.add_left_cancel e)
      exact e)
    (by
      intro p hp q hq
      rw [List.mem_range] at hp hq
      exact (hs _ hp _ hq).2)
    (by
      intro p hp
      rw [List.mem_range] at hp
      have := hR _ hp
      simp only [this.1, this.2]; exact ⟨rfl, rfl⟩)
    (by
      intro p hp m hm
      rw [List.mem_range] at hp
      apply hstep _ hp m
      intro c hc
      apply hm
      intro q hq hqp
      rw [List.mem_range] at hq
      exact hc _ hq fun e => hqp (e))
  refine ⟨m', h1, fun i hi => h2 i (List.mem_range.2 hi), fun c hc => h3 c fun p hp => ?_⟩
  rw [List.mem_range] at hp
  exact not_cov.1 hc _ hp

end CV1

namespace CV2

theorem not_cov {v : CV2} {c : Nat} :
    ¬ v.Cov c ↔ ∀ i, i < v.n0 → ∀ j, j < v.n1 → c ≠ v.arr + v.off i j ∧ c ≠ v.arrc + v.off i j := by
  constructor
  · intro h i hi j hj
    exact ⟨fun e => h ⟨i, hi, j, hj, .inl e⟩, fun e => h ⟨i, hi, j, hj, .inr e⟩⟩
  · rintro h ⟨i, hi, j, hj, e⟩
    have := h i hi j hj
    tauto

/-- A loop over all entries that stores one entry per round. -/
theorem run (v : CV2) (hs : v.Sep) (m0 : Buf α) (R : Nat → Nat → Cx α) (hR : v.Has m0 R) (new : Nat → Nat → Cx α)
    (step : Nat → Nat → Buf α → Res (Buf α))
    (hstep : ∀ i, i < v.n0 → ∀ j, j < v.n1 → ∀ m : Buf α,
      (∀ z, (∀ a, a < v.n0 → ∀ b, b < v.n1 → ¬ (a = i ∧ b = j) → z ≠ v.arr + v.off a b ∧ z ≠ v.arrc + v.off a b) → m z = m0 z) →
      step i j m = setC (v.arr + v.off i j) (v.arrc + v.off i j) (new i j) m) :
    ∃ m', (loop v.n0 m0 fun i m => loop v.n1 m fun j m => step i j m) = .ok m' ∧ v.Has m' new ∧ ∀ c, ¬ v.Cov c → m' c = m0 c := by
  rw [loop2_eq]
  obtain ⟨m', h1, h2, h3⟩ := ccells_run (pairs v.n0 v.n1) (fun p => v.arr + v.off p.1 p.2) (fun p => v.arrc + v.off p.1 p.2)
    (fun p => new p.1 p.2) (fun m p => step p.1 p.2 m) m0 (nodup_pairs _ _)
    (by
      intro p hp q hq e
      rw [mem_pairs] at hp hq
      have e := (hs _ hp.1 _ hp.2 _ hq.1 _ hq.2).1 (Nat.add_left_cancel e)
      exact Prod.ext e.1 e.2)
    (by
      intro p hp q hq e
      rw [mem_pairs] at hp hq
      have e := (hs _ hp.1 _ hp.2 _ hq.1 _ hq.2).1 (Nat.add_left_cancel e)
      exact Prod.ext e.1 e.2)
    (by
      intro p hp q hq
      rw [mem_pairs] at hp hq
      exact (hs _ hp.1 _ hp.2 _ hq.1 _ hq.2).2)
    (by
      intro p hp
      rw [mem_pairs] at hp
      have := hR _ hp.1 _ hp.2
      simp only [this.1, this.2]; exact ⟨rfl, rfl⟩)
    (by
      intro p hp m hm
      rw [mem_pairs] at hp
      apply hstep _ hp.1 _ hp.2 m
      intro c hc
      apply hm
      intro q hq hqp
      rw [mem_pairs] at hq
      exact hc _ hq.1 _ hq.2 fun e => hqp (Prod.ext e.1 e.2))
  refine ⟨m', h1, fun i hi j hj => h2 (i, j) (mem_pairs.2 ⟨hi, hj⟩), fun c hc => h3 c fun p hp => ?_⟩
  rw [mem_pairs] at hp
  exact not_cov.1 hc _ hp.1 _ hp.2

end CV2

namespace CV3

theorem not_cov {v : CV3} {c : Nat} :
    ¬ v.Cov c ↔ ∀ i, i < v.n0 → ∀ j, j < v.n1 → ∀ k, k < v.n2 → c ≠ v.arr + v.off i j k ∧ c ≠ v.arrc + v.off i j k := by
  constructor
  · intro h i hi j hj k hk
    exact ⟨fun e => h ⟨i, hi, j, hj, k, hk, .inl e⟩, fun e => h ⟨i, hi, j, hj, k, hk, .inr e⟩⟩
  · rintro h ⟨i, hi, j, hj, k, hk, e⟩
    have := h i hi j hj k hk
    tauto

/-- A loop over all entries that stores one entry per round. -/
theorem run (v : CV3) (hs : v.Sep) (m0 : Buf α) (R : Nat → Nat → Nat → Cx α) (hR : v.Has m0 R) (new : Nat → Nat → Nat → Cx α)
    (step : Nat → Nat → Nat → Buf α → Res (Buf α))
    (hstep : ∀ i, i < v.n0 → ∀ j, j < v.n1 → ∀ k, k < v.n2 → ∀ m : Buf α,
      (∀ z, (∀ a, a < v.n0 → ∀ b, b < v.n1 → ∀ c, c < v.n2 → ¬ (a = i ∧ b = j ∧ c = k) → z ≠ v.arr + v.off a b c ∧ z ≠ v.arrc + v.off a b c) → m z = m0 z) →
      step i j k m = setC (v.arr + v.off i j k) (v.arrc + v.off i j k) (new i j k) m) :
    ∃ m', (loop v.n0 m0 fun i m => loop v.n1 m fun j m => loop v.n2 m fun k m => step i j k m) = .ok m' ∧ v.Has m' new ∧ ∀ c, ¬ v.Cov c → m' c = m0 c := by
  rw [loop3_eq]
  obtain ⟨m', h1, h2, h3⟩ := ccells_run (idx3 v.n0 v.n1 v.n2) (fun p => v.arr + v.off p.1 p.2.1 p.2.2) (fun p => v.arrc + v.off p.1 p.2.1 p.2.2)
    (fun p => new p.1 p.2.1 p.2.2) (fun m p => step p.1 p.2.1 p.2.2 m) m0 (nodup_idx3 _ _ _)
    (by
      intro p hp q hq e
      rw [mem_idx3] at hp hq
      have e := (hs _ hp.1 _ hp.2.1 _ hp.2.2 _ hq.1 _ hq.2.1 _ hq.2.2).1 (Nat.add_left_cancel e)
      exact Prod.ext e.1 (Prod.ext e.2.1 e.2.2))
    (by
      intro p hp q hq e
      rw [mem_idx3] at hp hq
      have e := (hs _ hp.1 _ hp.2.1 _ hp.2.2 _ hq.1 _ hq.2.1 _ hq.2.2).1 (Nat.add_left_cancel e)
      exact Prod.ext e.1 (Prod.ext e.2.1 e.2.2))
    (by
      intro p hp q hq
      rw [mem_idx3] at hp hq
      exact (hs _ hp.1 _ hp.2.1 _ hp.2.2 _ hq.1 _ hq.2.1 _ hq.2.2).2)
    (by
      intro p hp
      rw [mem_idx3] at hp
      have := hR _ hp.1 _ hp.2.1 _ hp.2.2
      simp only [this.1, this.2]; exact ⟨rfl, rfl⟩)
    (by
      intro p hp m hm
      rw [mem_idx3] at hp
      apply hstep _ hp.1 _ hp.2.1 _ hp.2.2 m
      intro c hc
      apply hm
      intro q hq hqp
      rw [mem_idx3] at hq
      exact hc _ hq.1 _ hq.2.1 _ hq.2.2 fun e => hqp (Prod.ext e.1 (Prod.ext e.2.1 e.2.2)))
  refine ⟨m', h1, fun i hi j hj k hk => h2 (i, j, k) (mem_idx3.2 ⟨hi, hj, hk⟩), fun c hc => h3 c fun p hp => ?_⟩
  rw [mem_idx3] at hp
  exact not_cov.1 hc _ hp.1 _ hp.2.1 _ hp.2.2

end CV3

namespace CV4

theorem not_cov {v : CV4} {c : Nat} :
    ¬ v.Cov c ↔ ∀ i, i < v.n0 → ∀ j, j < v.n1 → ∀ k, k < v.n2 → ∀ l, l < v.n3 → c ≠ v.arr + v.off i j k l ∧ c ≠ v.arrc + v.off i j k l := by
  constructor
  · intro h i hi j hj k hk l hl
    exact ⟨fun e => h ⟨i, hi, j, hj, k, hk, l, hl, .inl e⟩, fun e => h ⟨i, hi, j, hj, k, hk, l, hl, .inr e⟩⟩
  · rintro h ⟨i, hi, j, hj, k, hk, l, hl, e⟩
    have := h i hi j hj k hk l hl
    tauto

/-- A loop over all entries that stores one entry per round. -/
theorem run (v : CV4) (hs : v.Sep) (m0 : Buf α) (R : Nat → Nat → Nat → Nat → Cx α) (hR : v.Has m0 R) (new : Nat → Nat → Nat → Nat → Cx α)
    (step : Nat → Nat → Nat → Nat → Buf α → Res (Buf α))
    (hstep : ∀ i, i < v.n0 → ∀ j, j < v.n1 → ∀ k, k < v.n2 → ∀ l, l < v.n3 → ∀ m : Buf α,
      (∀ z, (∀ a, a < v.n0 → ∀ b, b < v.n1 → ∀ c, c < v.n2 → ∀ d, d < v.n3 → ¬ (a = i ∧ b = j ∧ c = k ∧ d = l) → z ≠ v.arr + v.off a b c d ∧ z ≠ v.arrc + v.off a b c d) → m z = m0 z) →
      step i j k l m = setC (v.arr + v.off i j k l) (v.arrc + v.off i j k l) (new i j k l) m) :
    ∃ m', (loop v.n0 m0 fun i m => loop v.n1 m fun j m => loop v.n2 m fun k m => loop v.n3 m fun l m => step i j k l m) = .ok m' ∧ v.Has m' new ∧ ∀ c, ¬ v.Cov c → m' c = m0 c := by
  rw [loop4_eq]
  obtain ⟨m', h1, h2, h3⟩ := ccells_run (idx4 v.n0 v.n1 v.n2 v.n3) (fun p => v.arr + v.off p.1 p.2.1 p.2.2.1 p.2.2.2) (fun p => v.arrc + v.off p.1 p.2.1 p.2.2.1 p.2.2.2)
    (fun p => new p.1 p.2.1 p.2.2.1 p.2.2.2) (fun m p => step p.1 p.2.1 p.2.2.1 p.2.2.2 m) m0 (nodup_idx4 _ _ _ _)
    (by
      intro p hp q hq e
      rw [mem_idx4] at hp hq
      have e := (hs _ hp.1 _ hp.2.1 _ hp.2.2.1 _ hp.2.2.2 _ hq.1 _ hq.2.1 _ hq.2.2.1 _ hq.2.2.2).1 (Nat.add_left_cancel e)
      exact Prod.ext e.1 (Prod.ext e.2.1 (Prod.ext e.2.2.1 e.2.2.2)))
    (by
      intro p hp q hq e
      rw [mem_idx4] at hp hq
      have e := (hs _ hp.1 _ hp.2.1 _ hp.2.2.1 _ hp.2.2.2 _ hq.1 _ hq.2.1 _ hq.2.2.1 _ hq.2.2.2).1 (Nat.add_left_cancel e)
      exact Prod.ext e.1 (Prod.ext e.2.1 (Prod.ext e.2.2.1 e.2.2.2)))
    (by
      intro p hp q hq
      rw [mem_idx4] at hp hq
      exact (hs _ hp.1 _ hp.2.1 _ hp.2.2.1 _ hp.2.2.2 _ hq.1 _ hq.2.1 _ hq.2.2.1 _ hq.2.2.2).2)
    (by
      intro p hp
      rw [mem_idx4] at hp
      have := hR _ hp.1 _ hp.2.1 _ hp.2.2.1 _ hp.2.2.2
      simp only [this.1, this.2]; exact ⟨rfl, rfl⟩)
    (by
      intro p hp m hm
      rw [mem_idx4] at hp
      apply hstep _ hp.1 _ hp.2.1 _ hp.2.2.1 _ hp.2.2.2 m
      intro c hc
      apply hm
      intro q hq hqp
      rw [mem_idx4] at hq
      exact hc _ hq.1 _ hq.2.1 _ hq.2.2.1 _ hq.2.2.2 fun e => hqp (Prod.ext e.1 (Prod.ext e.2.1 (Prod.ext e.2.2.1 e.2.2.2))))
  refine ⟨m', h1, fun i hi j hj k hk l hl => h2 (i, j, k, l) (mem_idx4.2 ⟨hi, hj, hk, hl⟩), fun c hc => h3 c fun p hp => ?_⟩
  rw [mem_idx4] at hp
  exact not_cov.1 hc _ hp.1 _ hp.2.1 _ hp.2.2.1 _ hp.2.2.2

end CV4

theorem CV1.get_ok {v : CV1} {m0 m : Buf α} {X : Nat → Cx α} (hX : v.Has m0 X) {i : Nat} (hi : i < v.n0)
    (h1 : m (v.arr + v.off i) = m0 (v.arr + v.off i)) (h2 : m (v.arrc + v.off i) = m0 (v.arrc + v.off i)) : v.get i m = .ok (X i) :=
  getC_ok (h1.trans (hX _ hi).1) (h2.trans (hX _ hi).2)

theorem CV1.inc_ok [Add α] {v : CV1} {m0 m : Buf α} {R : Nat → Cx α} (hs : v.Sep) (hR : v.Has m0 R) {i : Nat} (hi : i < v.n0) (t : Cx α)
    (h1 : m (v.arr + v.off i) = m0 (v.arr + v.off i)) (h2 : m (v.arrc + v.off i) = m0 (v.arrc + v.off i)) :
    v.inc i t m = setC (v.arr + v.off i) (v.arrc + v.off i) (R i + t) m :=
  incC_ok (h1.trans (hR _ hi).1) (h2.trans (hR _ hi).2) (hs _ hi _ hi).2 t

theorem CV1.store_ok {v : CV1} (hs : v.Sep) {m : Buf α} {R : Nat → Cx α} (hR : v.Has m R) {i : Nat} (hi : i < v.n0) (x : Cx α) :
    ∃ m', setC (v.arr + v.off i) (v.arrc + v.off i) x m = .ok m' ∧ v.Has m' (fun a => if a = i then x else R a) ∧
      ∀ c, c ≠ v.arr + v.off i → c ≠ v.arrc + v.off i → m' c = m c := by
  have hr := hR _ hi
  refine ⟨_, setC_ok (by rw [hr.1]; rfl) (by rw [hr.2]; rfl) (hs _ hi _ hi).2 x, ?_, ?_⟩
  · intro a ha
    have s1 := hs _ ha _ hi
    have s2 := hs _ hi _ ha
    by_cases h : a = i
    · rcases h with rfl
      simp only [s1.2.symm, if_false, and_self, if_true]

    · have h1 : v.off a ≠ v.off i := fun e => h (s1.1 e)
      simp only [Nat.add_left_cancel_iff, h1, if_false, s1.2, s2.2.symm, h]
      exact hR _ ha
  · intro c h1 h2
    simp [h1, h2]

theorem CV2.get_ok {v : CV2} {m0 m : Buf α} {X : Nat → Nat → Cx α} (hX : v.Has m0 X) {i j : Nat} (hi : i < v.n0) (hj : j < v.n1)
    (h1 : m (v.arr + v.off i j) = m0 (v.arr + v.off i j)) (h2 : m (v.arrc + v.off i j) = m0 (v.arrc + v.off i j)) : v.get i j m = .ok (X i j) :=
  getC_ok (h1.trans (hX _ hi _ hj).1) (h2.trans (hX _ hi _ hj).2)

theorem CV2.inc_ok [Add α] {v : CV2} {m0 m : Buf α} {R : Nat → Nat → Cx α} (hs : v.Sep) (hR : v.Has m0 R) {i j : Nat} (hi : i < v.n0) (hj : j < v.n1) (t : Cx α)
    (h1 : m (v.arr + v.off i j) = m0 (v.arr + v.off i j)) (h2 : m (v.arrc + v.off i j) = m0 (v.arrc + v.off i j)) :
    v.inc i j t m = setC (v.arr + v.off i j) (v.arrc + v.off i j) (R i j + t) m :=
  incC_ok (h1.trans (hR _ hi _ hj).1) (h2.trans (hR _ hi _ hj).2) (hs _ hi _ hj _ hi _ hj).2 t

theorem CV2.store_ok {v : CV2} (hs : v.Sep) {m : Buf α} {R : Nat → Nat → Cx α} (hR : v.Has m R) {i j : Nat} (hi : i < v.n0) (hj : j < v.n1) (x : Cx α) :
    ∃ m', setC (v.arr + v.off i j) (v.arrc + v.off i j) x m = .ok m' ∧ v.Has m' (fun a b => if a = i ∧ b = j then x else R a b) ∧
      ∀ c, c ≠ v.arr + v.off i j → c ≠ v.arrc + v.off i j → m' c = m c := by
  have hr := hR _ hi _ hj
  refine ⟨_, setC_ok (by rw [hr.1]; rfl) (by rw [hr.2]; rfl) (hs _ hi _ hj _ hi _ hj).2 x, ?_, ?_⟩
  · intro a ha b hb
    have s1 := hs _ ha _ hb _ hi _ hj
    have s2 := hs _ hi _ hj _ ha _ hb
    by_cases h : a = i ∧ b = j
    · rcases h with ⟨rfl, rfl⟩
      simp only [s1.2.symm, if_false, and_self, if_true]

    · have h1 : v.off a b ≠ v.off i j := fun e => h (s1.1 e)
      simp only [Nat.add_left_cancel_iff, h1, if_false, s1.2, s2.2.symm, h]
      exact hR _ ha _ hb
  · intro c h1 h2
    simp [h1, h2]

theorem CV3.get_ok {v : CV3} {m0 m : Buf α} {X : Nat → Nat → Nat → Cx α} (hX : v.Has m0 X) {i j k : Nat} (hi : i < v.n0) (hj : j < v.n1) (hk : k < v.n2)
    (h1 : m (v.arr + v.off i j k) = m0 (v.arr + v.off i j k)) (h2 : m (v.arrc + v.off i j k) = m0 (v.arrc + v.off i j k)) : v.get i j k m = .ok (X i j k) :=
  getC_ok (h1.trans (hX _ hi _ hj _ hk).1) (h2.trans (hX _ hi _ hj _ hk).2)

theorem CV3.inc_ok [Add α] {v : CV3} {m0 m : Buf α} {R : Nat → Nat → Nat → Cx α} (hs : v.Sep) (hR : v.Has m0 R) {i j k : Nat} (hi : i < v.n0) (hj : j < v.n1) (hk : k < v.n2) (t : Cx α)
    (h1 : m (v.arr + v.off i j k) = m0 (v.arr + v.off i j k)) (h2 : m (v.arrc + v.off i j k) = m0 (v.arrc + v.off i j k)) :
    v.inc i j k t m = setC (v.arr + v.off i j k) (v.arrc + v.off i j k) (R i j k + t) m :=
  incC_ok (h1.trans (hR _ hi _ hj _ hk).1) (h2.trans (hR _ hi _ hj _ hk).2) (hs _ hi _ hj _ hk _ hi _ hj _ hk).2 t

theorem CV3.store_ok {v : CV3} (hs : v.Sep) {m : Buf α} {R : Nat → Nat → Nat → Cx α} (hR : v.Has m R) {i j k : Nat} (hi : i < v.n0) (hj : j < v.n1) (hk : k < v.n2) (x : Cx α) :
    ∃ m', setC (v.arr + v.off i j k) (v.arrc + v.off i j k) x m = .ok m' ∧ v.Has m' (fun a b c => if a = i ∧ b = j ∧ c = k then x else R a b c) ∧
      ∀ c, c ≠ v.arr + v.off i j k → c ≠ v.arrc + v.off i j k → m' c = m c := by
  have hr := hR _ hi _ hj _ hk
  refine ⟨_, setC_ok (by rw [hr.1]; rfl) (by rw [hr.2]; rfl) (hs _ hi _ hj _ hk _ hi _ hj _ hk).2 x, ?_, ?_⟩
  · intro a ha b hb c hc
    have s1 := hs _ ha _ hb _ hc _ hi _ hj _ hk
    have s2 := hs _ hi _ hj _ hk _ ha _ hb _ hc
    by_cases h : a = i ∧ b = j ∧ c = k
    · rcases h with ⟨rfl, rfl, rfl⟩
      simp only [s1.2.symm, if_false, and_self, if_true]

    · have h1 : v.off a b c ≠ v.off i j k := fun e => h (s1.1 e)
      simp only [Nat.add_left_cancel_iff, h1, if_false, s1.2, s2.2.symm, h]
      exact hR _ ha _ hb _ hc
  · intro c h1 h2
    simp [h1, h2]

theorem CV4.get_ok {v : CV4} {m0 m : Buf α} {X : Nat → Nat → Nat → Nat → Cx α} (hX : v.Has m0 X) {i j k l : Nat} (hi : i < v.n0) (hj : j < v.n1) (hk : k < v.n2) (hl : l < v.n3)
    (h1 : m (v.arr + v.off i j k l) = m0 (v.arr + v.off i j k l)) (h2 : m (v.arrc + v.off i j k l) = m0 (v.arrc + v.off i j k l)) : v.get i j k l m = .ok (X i j k l) :=
  getC_ok (h1.trans (hX _ hi _ hj _ hk _ hl).1) (h2.trans (hX _ hi _ hj _ hk _ hl).2)

theorem CV4.inc_ok [Add α] {v : CV4} {m0 m : Buf α} {R : Nat → Nat → Nat → Nat → Cx α} (hs : v.Sep) (hR : v.Has m0 R) {i j k l : Nat} (hi : i < v.n0) (hj : j < v.n1) (hk : k < v.n2) (hl : l < v.n3) (t : Cx α)
    (h1 : m (v.arr + v.off i j k l) = m0 (v.arr + v.off i j k l)) (h2 : m (v.arrc + v.off i j k l) = m0 (v.arrc + v.off i j k l)) :
    v.inc i j k l t m = setC (v.arr + v.off i j k l) (v.arrc + v.off i j k l) (R i j k l + t) m :=
  incC_ok (h1.trans (hR _ hi _ hj _ hk _ hl).1) (h2.trans (hR _ hi _ hj _ hk _ hl).2) (hs _ hi _ hj _ hk _ hl _ hi _ hj _ hk _ hl).2 t

theorem CV4.store_ok {v : CV4} (hs : v.Sep) {m : Buf α} {R : Nat → Nat → Nat → Nat → Cx α} (hR : v.Has m R) {i j k l : Nat} (hi : i < v.n0) (hj : j < v.n1) (hk : k < v.n2) (hl : l < v.n3) (x : Cx α) :
    ∃ m', setC (v.arr + v.off i j k l) (v.arrc + v.off i j k l) x m = .ok m' ∧ v.Has m' (fun a b c d => if a = i ∧ b = j ∧ c = k ∧ d = l then x else R a b c d) ∧
      ∀ c, c ≠ v.arr + v.off i j k l → c ≠ v.arrc + v.off i j k l → m' c = m c := by
  have hr := hR _ hi _ hj _ hk _ hl
  refine ⟨_, setC_ok (by rw [hr.1]; rfl) (by rw [hr.2]; rfl) (hs _ hi _ hj _ hk _ hl _ hi _ hj _ hk _ hl).2 x, ?_, ?_⟩
  · intro a ha b hb c hc d hd
    have s1 := hs _ ha _ hb _ hc _ hd _ hi _ hj _ hk _ hl
    have s2 := hs _ hi _ hj _ hk _ hl _ ha _ hb _ hc _ hd
    by_cases h : a = i ∧ b = j ∧ c = k ∧ d = l
    · rcases h with ⟨rfl, rfl, rfl, rfl⟩
      simp only [s1.2.symm, if_false, and_self, if_true]

    · have h1 : v.off a b c d ≠ v.off i j k l := fun e => h (s1.1 e)
      simp only [Nat.add_left_cancel_iff, h1, if_false, s1.2, s2.2.symm, h]
      exact hR _ ha _ hb _ hc _ hd
  · intro c h1 h2
    simp [h1, h2]

/-- Elementwise loops: round `i` stores an entry computed from the old entry and the entry of `x`. -/
theorem CV1.map_run (r x : CV1) (hs : r.Sep) (hm : r.Match x) (hn : x.n0 = r.n0) (m0 : Buf α) (R X : Nat → Cx α)
    (hR : r.Has m0 R) (hX : x.Has m0 X) (new : Nat → Cx α) (fin : Nat → Cx α → Buf α → Res (Buf α))
    (hfin : ∀ i, i < r.n0 → ∀ m : Buf α, m (r.arr + r.off i) = m0 (r.arr + r.off i) → m (r.arrc + r.off i) = m0 (r.arrc + r.off i) →
      fin i (X i) m = setC (r.arr + r.off i) (r.arrc + r.off i) (new i) m) :
    ∃ m', (loop r.n0 m0 fun i m => do let a ← x.get i m; fin i a m) = .ok m' ∧ r.Has m' new ∧ ∀ c, ¬ r.Cov c → m' c = m0 c := by
  apply CV1.run r hs m0 R hR
  intro i hi m h
  have hi' : i < x.n0 := hn ▸ hi
  rw [CV1.get_ok hX hi' (h _ fun a ha n => ?_) (h _ fun a ha n => ?_), Res.ok_bind]
  · apply hfin i hi
    · exact h _ fun a ha n => ⟨fun e => n ((hs _ ha _ hi).1 (Nat.add_left_cancel e.symm)), (hs _ hi _ ha).2⟩
    · exact h _ fun a ha n => ⟨(hs _ ha _ hi).2.symm, fun e => n ((hs _ ha _ hi).1 (Nat.add_left_cancel e.symm))⟩
  · have := hm _ ha _ hi'
    exact ⟨fun e => n (this.1 e.symm), this.2.2.2.symm⟩
  · have := hm _ ha _ hi'
    exact ⟨this.2.2.1.symm, fun e => n (this.2.1 e.symm)⟩

theorem CV2.add_run [Add α] (r x : CV2) (hs : r.Sep) (hm : r.Match x) (h0 : x.n0 = r.n0) (h1 : x.n1 = r.n1) (m0 : Buf α)
    (R X : Nat → Nat → Cx α) (hR : r.Has m0 R) (hX : x.Has m0 X) :
    ∃ m', (loop r.n0 m0 fun i m => loop r.n1 m fun j m => do let a ← x.get i j m; r.inc i j a m) = .ok m' ∧
      r.Has m' (fun i j => R i j + X i j) ∧ ∀ c, ¬ r.Cov c → m' c = m0 c := by
  apply CV2.run r hs m0 R hR
  intro i hi j hj m h
  have hi' : i < x.n0 := h0 ▸ hi
  have hj' : j < x.n1 := h1 ▸ hj
  rw [CV2.get_ok hX hi' hj' (h _ fun a ha b hb n => ?_) (h _ fun a ha b hb n => ?_), Res.ok_bind]
  · apply CV2.inc_ok hs hR hi hj
    · exact h _ fun a ha b hb n => ⟨fun e => n ((hs _ ha _ hb _ hi _ hj).1 (Nat.add_left_cancel e.symm)), (hs _ hi _ hj _ ha _ hb).2⟩
    · exact h _ fun a ha b hb n => ⟨(hs _ ha _ hb _ hi _ hj).2.symm, fun e => n ((hs _ ha _ hb _ hi _ hj).1 (Nat.add_left_cancel e.symm))⟩
  · have := hm _ ha _ hb _ hi' _ hj'
    exact ⟨fun e => n (this.1 e.symm), this.2.2.2.symm⟩
  · have := hm _ ha _ hb _ hi' _ hj'
    exact ⟨this.2.2.1.symm, fun e => n (this.2.1 e.symm)⟩

theorem CV3.add_run [Add α] (r x : CV3) (hs : r.Sep) (hm : r.Match x) (h0 : x.n0 = r.n0) (h1 : x.n1 = r.n1) (h2 : x.n2 = r.n2)
    (m0 : Buf α) (R X : Nat → Nat → Nat → Cx α) (hR : r.Has m0 R) (hX : x.Has m0 X) :
    ∃ m', (loop r.n0 m0 fun i m => loop r.n1 m fun j m => loop r.n2 m fun k m => do let a ← x.get i j k m; r.inc i j k a m) = .ok m' ∧
      r.Has m' (fun i j k => R i j k + X i j k) ∧ ∀ c, ¬ r.Cov c → m' c = m0 c := by
  apply CV3.run r hs m0 R hR
  intro i hi j hj k hk m h
  have hi' : i < x.n0 := h0 ▸ hi
  have hj' : j < x.n1 := h1 ▸ hj
  have hk' : k < x.n2 := h2 ▸ hk
  rw [CV3.get_ok hX hi' hj' hk' (h _ fun a ha b hb c hc n => ?_) (h _ fun a ha b hb c hc n => ?_), Res.ok_bind]
  · apply CV3.inc_ok hs hR hi hj hk
    · exact h _ fun a ha b hb c hc n => ⟨fun e => n ((hs _ ha _ hb _ hc _ hi _ hj _ hk).1 (Nat.add_left_cancel e.symm)),
        (hs _ hi _ hj _ hk _ ha _ hb _ hc).2⟩
    · exact h _ fun a ha b hb c hc n => ⟨(hs _ ha _ hb _ hc _ hi _ hj _ hk).2.symm,
        fun e => n ((hs _ ha _ hb _ hc _ hi _ hj _ hk).1 (Nat.add_left_cancel e.symm))⟩
  · have := hm _ ha _ hb _ hc _ hi' _ hj' _ hk'
    exact ⟨fun e => n (this.1 e.symm), this.2.2.2.symm⟩
  · have := hm _ ha _ hb _ hc _ hi' _ hj' _ hk'
    exact ⟨this.2.2.1.symm, fun e => n (this.2.1 e.symm)⟩

/-- Products: every entry of the result gets a sum of terms read from elsewhere. -/
theorem CV2.prod_run [AddCommMonoid α] (r : CV2) (hs : r.Sep) (m0 : Buf α) (R : Nat → Nat → Cx α) (hR : r.Has m0 R) (n : Nat)
    (term : Nat → Nat → Nat → Buf α → Res (Cx α)) (T : Nat → Nat → Nat → Cx α)
    (hT : ∀ a, a < r.n0 → ∀ b, b < r.n1 → ∀ i, i < n → ∀ m : Buf α, (∀ c, ¬ r.Cov c → m c = m0 c) → term a b i m = .ok (T a b i)) :
    ∃ m', (loop r.n0 m0 fun a m => loop r.n1 m fun b m => do let t ← csum n (term a b) m; r.inc a b t m) = .ok m' ∧
      r.Has m' (fun a b => R a b + ((List.range n).map (T a b)).sum) ∧ ∀ c, ¬ r.Cov c → m' c = m0 c := by
  apply CV2.run r hs m0 R hR
  intro a ha b hb m h
  rw [csum_ok n (term a b) m (T a b) fun i hi => hT a ha b hb i hi m fun c hc => h c fun k hk l hl _ => CV2.not_cov.1 hc _ hk _ hl, Res.ok_bind]
  apply CV2.inc_ok hs hR ha hb
  · exact h _ fun i hi j hj n => ⟨fun e => n ((hs _ hi _ hj _ ha _ hb).1 (Nat.add_left_cancel e.symm)), (hs _ ha _ hb _ hi _ hj).2⟩
  · exact h _ fun i hi j hj n => ⟨(hs _ hi _ hj _ ha _ hb).2.symm, fun e => n ((hs _ hi _ hj _ ha _ hb).1 (Nat.add_left_cancel e.symm))⟩

theorem CV3.prod_run [AddCommMonoid α] (r : CV3) (hs : r.Sep) (m0 : Buf α) (R : Nat → Nat → Nat → Cx α) (hR : r.Has m0 R) (n : Nat)
    (term : Nat → Nat → Nat → Nat → Buf α → Res (Cx α)) (T : Nat → Nat → Nat → Nat → Cx α)
    (hT : ∀ a, a < r.n0 → ∀ b, b < r.n1 → ∀ d, d < r.n2 → ∀ i, i < n → ∀ m : Buf α, (∀ c, ¬ r.Cov c → m c = m0 c) →
      term a b d i m = .ok (T a b d i)) :
    ∃ m', (loop r.n0 m0 fun a m => loop r.n1 m fun b m => loop r.n2 m fun d m => do
        let t ← csum n (term a b d) m; r.inc a b d t m) = .ok m' ∧
      r.Has m' (fun a b d => R a b d + ((List.range n).map (T a b d)).sum) ∧ ∀ c, ¬ r.Cov c → m' c = m0 c := by
  apply CV3.run r hs m0 R hR
  intro a ha b hb d hd m h
  rw [csum_ok n (term a b d) m (T a b d) fun i hi => hT a ha b hb d hd i hi m fun c hc =>
    h c fun k hk l hl p hp _ => CV3.not_cov.1 hc _ hk _ hl _ hp, Res.ok_bind]
  apply CV3.inc_ok hs hR ha hb hd
  · exact h _ fun i hi j hj k hk n => ⟨fun e => n ((hs _ hi _ hj _ hk _ ha _ hb _ hd).1 (Nat.add_left_cancel e.symm)),
      (hs _ ha _ hb _ hd _ hi _ hj _ hk).2⟩
  · exact h _ fun i hi j hj k hk n => ⟨(hs _ hi _ hj _ hk _ ha _ hb _ hd).2.symm,
      fun e => n ((hs _ hi _ hj _ hk _ ha _ hb _ hd).1 (Nat.add_left_cancel e.symm))⟩

/-- Reading an entry of a view that shares no cell with `r`, once nothing but cells of `r` has changed. -/
theorem CV2.get_apart {x : CV2} {C : Nat → Prop} {m0 m : Buf α} {X : Nat → Nat → Cx α} (hX : x.Has m0 X) (ha : ∀ c, C c → ¬ x.Cov c)
    (hm : ∀ c, ¬ C c → m c = m0 c) {i j : Nat} (hi : i < x.n0) (hj : j < x.n1) : x.get i j m = .ok (X i j) :=
  CV2.get_ok hX hi hj (hm _ fun h => ha _ h ⟨i, hi, j, hj, .inl rfl⟩) (hm _ fun h => ha _ h ⟨i, hi, j, hj, .inr rfl⟩)

theorem CV3.get_apart {x : CV3} {C : Nat → Prop} {m0 m : Buf α} {X : Nat → Nat → Nat → Cx α} (hX : x.Has m0 X) (ha : ∀ c, C c → ¬ x.Cov c)
    (hm : ∀ c, ¬ C c → m c = m0 c) {i j k : Nat} (hi : i < x.n0) (hj : j < x.n1) (hk : k < x.n2) : x.get i j k m = .ok (X i j k) :=
  CV3.get_ok hX hi hj hk (hm _ fun h => ha _ h ⟨i, hi, j, hj, k, hk, .inl rfl⟩) (hm _ fun h => ha _ h ⟨i, hi, j, hj, k, hk, .inr rfl⟩)


end Cnine
