import Verif.Model.GpuC
import Verif.Spec.GpuC
import Verif.Lemmas.CView
import Verif.Lemmas.GpuR

/-!
# Threads that write a real and an imaginary part
-/

namespace Cnine

variable {α β ι : Type}

namespace GpuC

open Gpu

/-- A thread that ends with `v` in `c` and `v'` in `c'` and reads only cells of `S` besides. -/
structure Pair (m : Buf α) (t : Thr α Unit) (c c' : Nat) (V : Cx α) (S : Nat → Prop) : Prop where
  within : Within S (fun p => p = c ∨ p = c') t
  run : t.run m = .ok (fun p => if p = c' then some V.im else if p = c then some V.re else m p, ())

/-- A launch of which the threads with `G` write a real and an imaginary part each and the others nothing. -/
theorem Ends.pairs {l : Launch α} {m : Buf α} {D : ι → Prop} {c c' : ι → Nat} {V : ι → Cx α} {S : ι → Nat → Prop} (G : D3 × D3 → Prop) (idx : D3 × D3 → ι)
    (own : Own2 D c c') (hv : (∃ i, D i) → l.valid = true) (hout : ∀ q ∈ l.ids, ¬ G q → l.kern q.1 q.2 = pure ()) (hD : ∀ q ∈ l.ids, G q → D (idx q))
    (hinj : ∀ q ∈ l.ids, ∀ q' ∈ l.ids, G q → G q' → idx q = idx q' → q = q') (hsurj : ∀ i, D i → ∃ q ∈ l.ids, G q ∧ idx q = i)
    (hpair : ∀ q ∈ l.ids, G q → Pair m (l.kern q.1 q.2) (c (idx q)) (c' (idx q)) (V (idx q)) (S (idx q)))
    (hS : ∀ i j, D i → D j → i ≠ j → ¬ S j (c i) ∧ ¬ S j (c' i)) : Ends [l] m fun m' => Upd2 m m' D c c' V := by
  classical
  by_cases hv' : l.valid = true
  · refine (Ends.own hv' (fun q p => G q ∧ S (idx q) p) (fun q p => G q ∧ (p = c (idx q) ∨ p = c' (idx q)))
      (fun q => if G q then fun p => if p = c' (idx q) then some (V (idx q)).im else if p = c (idx q) then some (V (idx q)).re else m p else m) ?_ ?_ ?_).imp
      fun m' h => ⟨fun i hi => ?_, fun p hp => ?_⟩
    · intro q hq
      by_cases g : G q
      · simp only [g, true_and]
        exact (hpair q hq g).within
      · rw [hout q hq g]
        exact Within.ret _
    · rintro q hq q' hq' hne p ⟨g, hp⟩
      refine ⟨?_, ?_⟩
      · rintro ⟨g', hp'⟩
        have nn : idx q ≠ idx q' := fun e => hne (hinj q hq q' hq' g g' e)
        have d := hD q hq g
        have d' := hD q' hq' g'
        rcases hp with rfl | rfl <;> rcases hp' with e | e
        · exact nn (own.re _ _ d d' e)
        · exact own.ne _ _ d d' e
        · exact own.ne _ _ d' d e.symm
        · exact nn (own.im _ _ d d' e)
      · rintro ⟨g', hp'⟩
        have nn : idx q ≠ idx q' := fun e => hne (hinj q hq q' hq' g g' e)
        have := hS _ _ (hD q hq g) (hD q' hq' g') nn
        rcases hp with rfl | rfl
        · exact this.1 hp'
        · exact this.2 hp'
    · intro q hq
      by_cases g : G q
      · rw [if_pos g]
        exact (hpair q hq g).run
      · rw [if_neg g, hout q hq g]
        rfl
    · obtain ⟨q, hq, g, e⟩ := hsurj i hi
      have e1 := h.1 q hq (c i) ⟨g, .inl (by rw [e])⟩
      have e2 := h.1 q hq (c' i) ⟨g, .inr (by rw [e])⟩
      rw [e1, e2, if_pos g, e, if_neg (own.ne i i hi hi), if_pos rfl, if_pos rfl]
      exact ⟨rfl, rfl⟩
    · refine h.2 p ?_
      rintro q hq ⟨g, hw⟩
      obtain ⟨n1, n2⟩ := hp _ (hD q hq g)
      exact hw.elim n1 n2
  · refine Ends.skip (by simpa using hv') (Ends.nil ⟨fun i hi => absurd (hv ⟨i, hi⟩) hv', fun _ _ => rfl⟩)

/-- All threads write. -/
theorem Ends.pairs' {l : Launch α} {m : Buf α} {D : ι → Prop} {c c' : ι → Nat} {V : ι → Cx α} {S : ι → Nat → Prop} {idx : D3 × D3 → ι} (h : Covers l D idx)
    (own : Own2 D c c') (hpair : ∀ q ∈ l.ids, Pair m (l.kern q.1 q.2) (c (idx q)) (c' (idx q)) (V (idx q)) (S (idx q)))
    (hS : ∀ i j, D i → D j → i ≠ j → ¬ S j (c i) ∧ ¬ S j (c' i)) : Ends [l] m fun m' => Upd2 m m' D c c' V :=
  Ends.pairs (fun _ => True) idx own h.valid (fun _ _ g => absurd trivial g) (fun q hq _ => h.mem q hq) (fun q hq q' hq' _ _ => h.inj q hq q' hq')
    (fun i hi => by obtain ⟨q, hq, e⟩ := h.surj i hi; exact ⟨q, hq, trivial, e⟩) (fun q hq _ => hpair q hq) hS

/-- Two increments. -/
theorem run_inc2 [Add α] {m : Buf α} {p q : Nat} {a b : α} (u v : α) (hp : m p = some a) (hq : m q = some b) (hne : p ≠ q) :
    (do Thr.inc p u; Thr.inc q v : Thr α Unit).run m = .ok (fun c => if c = q then some (b + v) else if c = p then some (a + u) else m c, ()) := by
  rw [Thr.run_bind, Thr.run_inc u hp, Res.ok_bind]
  exact Thr.run_inc v (by simp only [if_neg hne.symm]; exact hq)

/-- A thread that reads the two parts of two entries and increments a third. -/
theorem pair_prod [Add α] {m : Buf α} {c c' x x' y y' : Nat} {R X Y : Cx α} (f g : α → α → α → α → α) (hne : c ≠ c') (hr : m c = some R.re) (hr' : m c' = some R.im)
    (hx : m x = some X.re) (hx' : m x' = some X.im) (hy : m y = some Y.re) (hy' : m y' = some Y.im) :
    Pair m (do
      let xr ← Thr.rd x
      let xi ← Thr.rd x'
      let yr ← Thr.rd y
      let yi ← Thr.rd y'
      Thr.inc c (f xr xi yr yi)
      Thr.inc c' (g xr xi yr yi)) c c' ⟨R.re + f X.re X.im Y.re Y.im, R.im + g X.re X.im Y.re Y.im⟩ (fun p => p = x ∨ p = x' ∨ p = y ∨ p = y') := by
  refine ⟨?_, ?_⟩
  · refine (Within.rd (.inl (.inl rfl))).bind fun _ => (Within.rd (.inl (.inr (.inl rfl)))).bind fun _ => (Within.rd (.inl (.inr (.inr (.inl rfl))))).bind fun _ =>
      (Within.rd (.inl (.inr (.inr (.inr rfl))))).bind fun _ => (Within.inc (.inl rfl)).bind fun _ => Within.inc (.inr rfl)
  · rw [Thr.run_bind, Thr.run_rd hx, Res.ok_bind, Thr.run_bind, Thr.run_rd hx', Res.ok_bind, Thr.run_bind, Thr.run_rd hy, Res.ok_bind, Thr.run_bind, Thr.run_rd hy', Res.ok_bind]
    exact run_inc2 _ _ hr hr' hne

/-- A thread that sums products of entries and increments a third. -/
theorem pair_sum [Ring α] {m : Buf α} {c c' : Nat} {x x' y y' : Nat → Nat} {R : Cx α} {X Y : Nat → Cx α} (n : Nat) (hne : c ≠ c') (hr : m c = some R.re) (hr' : m c' = some R.im)
    (hx : ∀ i, i < n → m (x i) = some (X i).re ∧ m (x' i) = some (X i).im) (hy : ∀ i, i < n → m (y i) = some (Y i).re ∧ m (y' i) = some (Y i).im) :
    Pair m (do
      let t ← Thr.loop n ((0 : α), (0 : α)) fun i t => do
        let xr ← Thr.rd (x i)
        let xi ← Thr.rd (x' i)
        let yr ← Thr.rd (y i)
        let yi ← Thr.rd (y' i)
        pure (t.1 + (xr * yr - xi * yi), t.2 + (xr * yi + xi * yr))
      Thr.inc c t.1
      Thr.inc c' t.2) c c' (R + ((List.range n).map fun i => X i * Y i).sum) (fun p => ∃ i, i < n ∧ (p = x i ∨ p = x' i ∨ p = y i ∨ p = y' i)) := by
  refine ⟨?_, ?_⟩
  · refine (Within.loop fun i hi t => ?_).bind fun _ => (Within.inc (.inl rfl)).bind fun _ => Within.inc (.inr rfl)
    exact (Within.rd (.inl ⟨i, hi, .inl rfl⟩)).bind fun _ => (Within.rd (.inl ⟨i, hi, .inr (.inl rfl)⟩)).bind fun _ => (Within.rd (.inl ⟨i, hi, .inr (.inr (.inl rfl))⟩)).bind fun _ =>
      (Within.rd (.inl ⟨i, hi, .inr (.inr (.inr rfl))⟩)).bind fun _ => Within.ret _
  · rw [Thr.run_bind, Thr.run_loop (m := m) n ((0 : α), (0 : α)) _ (fun k => (((List.range k).map fun i => X i * Y i).sum.re, ((List.range k).map fun i => X i * Y i).sum.im)) rfl (fun i hi => ?_), Res.ok_bind]
    · exact run_inc2 _ _ hr hr' hne
    · rw [Thr.run_bind, Thr.run_rd (hx i hi).1, Res.ok_bind, Thr.run_bind, Thr.run_rd (hx i hi).2, Res.ok_bind, Thr.run_bind, Thr.run_rd (hy i hi).1, Res.ok_bind, Thr.run_bind,
        Thr.run_rd (hy i hi).2, Res.ok_bind, Thr.run_ret, List.range_succ, List.map_append, List.sum_append, List.map_cons, List.map_nil, List.sum_cons, List.sum_nil, add_zero]
      rfl

end GpuC

end Cnine
