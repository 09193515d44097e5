import Verif.Props.CellMaps
import Verif.Props.GpuR

/-!
# Maps over cells on the GPU
-/

namespace Cnine

open CMap Gpu

variable {V : Type}

namespace CMap

/-- Threads that write one real and one imaginary part each. -/
theorem two_core {l : Launch V} {m : Buf V} {r : GArr} {n asize : Nat} {idx : D3 × D3 → Nat × Nat} (Z ZI : Nat → Nat → V) (S : D3 × D3 → Nat → Prop)
    (hc : Covers l (fun q : Nat × Nat => q.1 < n ∧ q.2 < asize) idx) (own : GOwn r n asize)
    (hS : ∀ q ∈ l.ids, ∀ i t, i < n → t < asize → ¬ S q (r.re i t) ∧ ¬ S q (r.im i t))
    (hin : ∀ q ∈ l.ids, Within (S q) (fun p => p = r.re (idx q).1 (idx q).2 ∨ p = r.im (idx q).1 (idx q).2) (l.kern q.1 q.2))
    (hrun : ∀ q ∈ l.ids, (l.kern q.1 q.2).run m = .ok (fun p => if p = r.im (idx q).1 (idx q).2 then some (ZI (idx q).1 (idx q).2) else
      if p = r.re (idx q).1 (idx q).2 then some (Z (idx q).1 (idx q).2) else m p, ())) :
    Ends [l] m fun m' => GBecomes m m' r n asize Z ZI := by
  by_cases hv : l.valid = true
  · refine (Ends.own hv S (fun q p => p = r.re (idx q).1 (idx q).2 ∨ p = r.im (idx q).1 (idx q).2) _ hin ?_ hrun).imp fun m' h => ⟨fun i t hi ht => ?_, fun p hp => ?_⟩
    · intro q hq q' hq' hne p hp
      obtain ⟨a1, a2⟩ := hc.mem q hq
      obtain ⟨b1, b2⟩ := hc.mem q' hq'
      have nn : ¬ ((idx q).1 = (idx q').1 ∧ (idx q).2 = (idx q').2) := fun e => hne (hc.inj q hq q' hq' (Prod.ext e.1 e.2))
      rcases hp with rfl | rfl
      · refine ⟨?_, (hS q' hq' _ _ a1 a2).1⟩
        rintro (e | e)
        · exact nn (own.re _ _ _ _ a1 b1 a2 b2 e)
        · exact own.ne _ _ _ _ a1 b1 a2 b2 e
      · refine ⟨?_, (hS q' hq' _ _ a1 a2).2⟩
        rintro (e | e)
        · exact own.ne _ _ _ _ b1 a1 b2 a2 e.symm
        · exact nn (own.im _ _ _ _ a1 b1 a2 b2 e)
    · obtain ⟨q, hq, e⟩ := hc.surj (i, t) ⟨hi, ht⟩
      have e1 := h.1 q hq (r.re i t) (.inl (by rw [e]))
      have e2 := h.1 q hq (r.im i t) (.inr (by rw [e]))
      rw [e1, e2, e]
      dsimp only
      rw [if_neg (own.ne i i t t hi hi ht ht), if_pos rfl, if_pos rfl]
      exact ⟨rfl, rfl⟩
    · refine h.2 p fun q hq hw => ?_
      obtain ⟨a1, a2⟩ := hc.mem q hq
      obtain ⟨n1, n2⟩ := hp _ _ a1 a2
      exact hw.elim n1 n2
  · refine Ends.skip (by simpa using hv) (Ends.nil ⟨fun i t hi ht => absurd (hc.valid ⟨(i, t), hi, ht⟩) hv, fun _ _ => rfl⟩)

/-- What a thread of `CtensorA_plus_kernel` does. -/
theorem plusK_run [Add V] {m : Buf V} {r x y : GArr} {map : D3 → Nat × Nat × Nat} {b t : D3} {xr yr xi yi cr ci : V} (h1 : m (x.re (map b).2.1 t.x) = some xr)
    (h2 : m (y.re (map b).2.2 t.x) = some yr) (h3 : m (x.im (map b).2.1 t.x) = some xi) (h4 : m (y.im (map b).2.2 t.x) = some yi) (h5 : m (r.re (map b).1 t.x) = some cr)
    (h6 : m (r.im (map b).1 t.x) = some ci) (n1 : r.re (map b).1 t.x ≠ x.im (map b).2.1 t.x) (n2 : r.re (map b).1 t.x ≠ y.im (map b).2.2 t.x)
    (n3 : r.re (map b).1 t.x ≠ r.im (map b).1 t.x) :
    (plusK r x y map b t).run m = .ok (fun p => if p = r.im (map b).1 t.x then some (xi + yi) else if p = r.re (map b).1 t.x then some (xr + yr) else m p, ()) := by
  rw [plusK]
  simp only [Thr.run_bind, Thr.run_rd h1, Thr.run_rd h2, Thr.run_wr _ h5, Res.ok_bind]
  have g3 : (fun q => if q = r.re (map b).1 t.x then some (xr + yr) else m q) (x.im (map b).2.1 t.x) = some xi := by simp only [if_neg n1.symm]; exact h3
  have g4 : (fun q => if q = r.re (map b).1 t.x then some (xr + yr) else m q) (y.im (map b).2.2 t.x) = some yi := by simp only [if_neg n2.symm]; exact h4
  have g6 : (fun q => if q = r.re (map b).1 t.x then some (xr + yr) else m q) (r.im (map b).1 t.x) = some ci := by simp only [if_neg n3.symm]; exact h6
  simp only [Thr.run_rd (m := fun q => if q = r.re (map b).1 t.x then some (xr + yr) else m q) g3, Thr.run_rd (m := fun q => if q = r.re (map b).1 t.x then some (xr + yr) else m q) g4, Thr.run_wr (m := fun q => if q = r.re (map b).1 t.x then some (xr + yr) else m q) _ g6, Res.ok_bind]

/-- What a thread of `CtensorA_add_plus_kernel` does. -/
theorem addPlusK_run [Add V] {m : Buf V} {r x y : GArr} {map : D3 → Nat × Nat × Nat} {b t : D3} {xr yr xi yi cr ci : V} (h1 : m (x.re (map b).2.1 t.x) = some xr)
    (h2 : m (y.re (map b).2.2 t.x) = some yr) (h3 : m (x.im (map b).2.1 t.x) = some xi) (h4 : m (y.im (map b).2.2 t.x) = some yi) (h5 : m (r.re (map b).1 t.x) = some cr)
    (h6 : m (r.im (map b).1 t.x) = some ci) (n1 : r.re (map b).1 t.x ≠ x.im (map b).2.1 t.x) (n2 : r.re (map b).1 t.x ≠ y.im (map b).2.2 t.x)
    (n3 : r.re (map b).1 t.x ≠ r.im (map b).1 t.x) :
    (addPlusK r x y map b t).run m = .ok (fun p => if p = r.im (map b).1 t.x then some (ci + (xi + yi)) else if p = r.re (map b).1 t.x then some (cr + (xr + yr)) else m p, ()) := by
  rw [addPlusK]
  simp only [Thr.run_bind, Thr.run_rd h1, Thr.run_rd h2, Thr.run_inc _ h5, Res.ok_bind]
  have g3 : (fun q => if q = r.re (map b).1 t.x then some (cr + (xr + yr)) else m q) (x.im (map b).2.1 t.x) = some xi := by simp only [if_neg n1.symm]; exact h3
  have g4 : (fun q => if q = r.re (map b).1 t.x then some (cr + (xr + yr)) else m q) (y.im (map b).2.2 t.x) = some yi := by simp only [if_neg n2.symm]; exact h4
  have g6 : (fun q => if q = r.re (map b).1 t.x then some (cr + (xr + yr)) else m q) (r.im (map b).1 t.x) = some ci := by simp only [if_neg n3.symm]; exact h6
  simp only [Thr.run_rd (m := fun q => if q = r.re (map b).1 t.x then some (cr + (xr + yr)) else m q) g3, Thr.run_rd (m := fun q => if q = r.re (map b).1 t.x then some (cr + (xr + yr)) else m q) g4, Thr.run_inc (m := fun q => if q = r.re (map b).1 t.x then some (cr + (xr + yr)) else m q) _ g6, Res.ok_bind]

/-- The same with the wrong summand. -/
theorem addPlusOldK_run [Add V] {m : Buf V} {r x y : GArr} {map : D3 → Nat × Nat × Nat} {b t : D3} {xr yr xi cr ci : V} (h1 : m (x.re (map b).2.1 t.x) = some xr)
    (h2 : m (y.re (map b).2.2 t.x) = some yr) (h3 : m (x.im (map b).2.1 t.x) = some xi) (h5 : m (r.re (map b).1 t.x) = some cr)
    (h6 : m (r.im (map b).1 t.x) = some ci) (n1 : r.re (map b).1 t.x ≠ x.im (map b).2.1 t.x) (n2 : r.re (map b).1 t.x ≠ y.re (map b).2.2 t.x)
    (n3 : r.re (map b).1 t.x ≠ r.im (map b).1 t.x) :
    (addPlusOldK r x y map b t).run m = .ok (fun p => if p = r.im (map b).1 t.x then some (ci + (xi + yr)) else if p = r.re (map b).1 t.x then some (cr + (xr + yr)) else m p, ()) := by
  rw [addPlusOldK]
  simp only [Thr.run_bind, Thr.run_rd h1, Thr.run_rd h2, Thr.run_inc _ h5, Res.ok_bind]
  have g3 : (fun q => if q = r.re (map b).1 t.x then some (cr + (xr + yr)) else m q) (x.im (map b).2.1 t.x) = some xi := by simp only [if_neg n1.symm]; exact h3
  have g4 : (fun q => if q = r.re (map b).1 t.x then some (cr + (xr + yr)) else m q) (y.re (map b).2.2 t.x) = some yr := by simp only [if_neg n2.symm]; exact h2
  have g6 : (fun q => if q = r.re (map b).1 t.x then some (cr + (xr + yr)) else m q) (r.im (map b).1 t.x) = some ci := by simp only [if_neg n3.symm]; exact h6
  simp only [Thr.run_rd (m := fun q => if q = r.re (map b).1 t.x then some (cr + (xr + yr)) else m q) g3, Thr.run_rd (m := fun q => if q = r.re (map b).1 t.x then some (cr + (xr + yr)) else m q) g4, Thr.run_inc (m := fun q => if q = r.re (map b).1 t.x then some (cr + (xr + yr)) else m q) _ g6, Res.ok_bind]

/-- The cells a thread reads. -/
def reads (x y : GArr) (i j t p : Nat) : Prop := p = x.re i t ∨ p = y.re j t ∨ p = x.im i t ∨ p = y.im j t

theorem reads_apart {r x y : GArr} {n kx ky asize : Nat} (ax : GApart r n x kx asize) (ay : GApart r n y ky asize) {i j t : Nat} (hi : i < kx) (hj : j < ky) (ht : t < asize) (a u : Nat)
    (ha : a < n) (hu : u < asize) : ¬ reads x y i j t (r.re a u) ∧ ¬ reads x y i j t (r.im a u) := by
  constructor
  · rintro (e | e | e | e)
    · exact ax.rr _ _ _ _ ha hi hu ht e
    · exact ay.rr _ _ _ _ ha hj hu ht e
    · exact ax.ri _ _ _ _ ha hi hu ht e
    · exact ay.ri _ _ _ _ ha hj hu ht e
  · rintro (e | e | e | e)
    · exact ax.ir _ _ _ _ ha hi hu ht e
    · exact ay.ir _ _ _ _ ha hj hu ht e
    · exact ax.ii _ _ _ _ ha hi hu ht e
    · exact ay.ii _ _ _ _ ha hj hu ht e

/-- `CtensorA_plus_cu` for a map that sends the blocks to different cells. -/
theorem plus_core [Add V] (grid : D3) (map : D3 → Nat × Nat × Nat) (flag : Bool) (r x y : GArr) (n kx ky asize : Nat) (m : Buf V) (R RI X XI Y YI : Nat → Nat → V) (fx fy : Nat → Nat)
    (hc : ∀ kern, Covers (⟨grid, ⟨asize, 1, 1⟩, kern⟩ : Launch V) (fun q : Nat × Nat => q.1 < n ∧ q.2 < asize) fun q => ((map q.1).1, q.2.x)) (own : GOwn r n asize)
    (ax : GApart r n x kx asize) (ay : GApart r n y ky asize) (hr : GHolds m r n asize R RI) (hx : GHolds m x kx asize X XI) (hy : GHolds m y ky asize Y YI)
    (bx : ∀ b : D3, (map b).1 < n → (map b).2.1 = fx (map b).1) (by' : ∀ b : D3, (map b).1 < n → (map b).2.2 = fy (map b).1)
    (cx : ∀ i, i < n → fx i < kx) (cy : ∀ i, i < n → fy i < ky) :
    Ends (plusCu grid map r x y asize flag) m fun m' => GBecomes m m' r n asize (fun i t => put flag (R i t) (X (fx i) t + Y (fy i) t))
      (fun i t => put flag (RI i t) (XI (fx i) t + YI (fy i) t)) := by
  have key : ∀ (q : D3 × D3), (map q.1).1 < n → q.2.x < asize → _ := fun q h1 h2 =>
    And.intro (hx _ _ (cx _ h1) h2) (And.intro (hy _ _ (cy _ h1) h2) (hr _ _ h1 h2))
  cases flag
  · rw [plusCu, if_pos rfl]
    refine two_core _ _ (fun q => reads x y (map q.1).2.1 (map q.1).2.2 q.2.x) (hc _) own ?_ ?_ ?_
    · intro q hq i t hi ht
      obtain ⟨a1, a2⟩ := (hc _).mem q hq
      exact reads_apart ax ay (by rw [bx _ a1]; exact cx _ a1) (by rw [by' _ a1]; exact cy _ a1) a2 i t hi ht
    · intro q hq
      refine (Within.rd (.inl (.inl rfl))).bind fun _ => (Within.rd (.inl (.inr (.inl rfl)))).bind fun _ => (Within.wr (.inl rfl)).bind fun _ =>
        (Within.rd (.inl (.inr (.inr (.inl rfl))))).bind fun _ => (Within.rd (.inl (.inr (.inr (.inr rfl))))).bind fun _ => Within.wr (.inr rfl)
    · intro q hq
      obtain ⟨a1, a2⟩ := (hc (plusK r x y map)).mem q hq
      obtain ⟨⟨k1, k2⟩, ⟨k3, k4⟩, k5, k6⟩ := key q a1 a2
      rw [← bx _ a1] at k1 k2
      rw [← by' _ a1] at k3 k4
      have c1 := cx _ a1
      have c2 := cy _ a1
      refine (plusK_run k1 k3 k2 k4 k5 k6 ?_ ?_ (own.ne _ _ _ _ a1 a1 a2 a2)).trans ?_
      · rw [bx _ a1]; exact ax.ri _ _ _ _ a1 c1 a2 a2
      · rw [by' _ a1]; exact ay.ri _ _ _ _ a1 c2 a2 a2
      · rw [bx _ a1, by' _ a1]; rfl
  · rw [plusCu, if_neg (by decide)]
    refine two_core _ _ (fun q => reads x y (map q.1).2.1 (map q.1).2.2 q.2.x) (hc _) own ?_ ?_ ?_
    · intro q hq i t hi ht
      obtain ⟨a1, a2⟩ := (hc _).mem q hq
      exact reads_apart ax ay (by rw [bx _ a1]; exact cx _ a1) (by rw [by' _ a1]; exact cy _ a1) a2 i t hi ht
    · intro q hq
      refine (Within.rd (.inl (.inl rfl))).bind fun _ => (Within.rd (.inl (.inr (.inl rfl)))).bind fun _ => (Within.inc (.inl rfl)).bind fun _ =>
        (Within.rd (.inl (.inr (.inr (.inl rfl))))).bind fun _ => (Within.rd (.inl (.inr (.inr (.inr rfl))))).bind fun _ => Within.inc (.inr rfl)
    · intro q hq
      obtain ⟨a1, a2⟩ := (hc (addPlusK r x y map)).mem q hq
      obtain ⟨⟨k1, k2⟩, ⟨k3, k4⟩, k5, k6⟩ := key q a1 a2
      rw [← bx _ a1] at k1 k2
      rw [← by' _ a1] at k3 k4
      have c1 := cx _ a1
      have c2 := cy _ a1
      refine (addPlusK_run k1 k3 k2 k4 k5 k6 ?_ ?_ (own.ne _ _ _ _ a1 a1 a2 a2)).trans ?_
      · rw [bx _ a1]; exact ax.ri _ _ _ _ a1 c1 a2 a2
      · rw [by' _ a1]; exact ay.ri _ _ _ _ a1 c2 a2 a2
      · rw [bx _ a1, by' _ a1]; rfl

/-- One block per cell. -/
theorem covers_cells (kern : D3 → D3 → Thr V Unit) (n asize : Nat) (hn : n ≤ 2147483647) (ha : asize ≤ 1024) :
    Covers (⟨⟨n, 1, 1⟩, ⟨asize, 1, 1⟩, kern⟩ : Launch V) (fun q : Nat × Nat => q.1 < n ∧ q.2 < asize) fun q => (q.1.x, q.2.x) := by
  refine covers_box _ _ _ _ _ (fun i => (⟨i.1, 0, 0⟩, ⟨i.2, 0, 0⟩)) ?_ ?_ ?_ ?_ ?_ ?_ ?_ ?_
  all_goals try box

end CMap

/-! ### C499: sums of cells -/

/-- `CellwiseBinaryCmap` with `CtensorA_plus_cop` on the GPU. -/
theorem C499_cellwise [Add V] (flag : Bool) (r x y : GArr) (n asize : Nat) (m : Buf V) (R RI X XI Y YI : Nat → Nat → V) (hn : n ≤ 2147483647) (ha : asize ≤ 1024) (own : GOwn r n asize)
    (ax : GApart r n x n asize) (ay : GApart r n y n asize) (hr : GHolds m r n asize R RI) (hx : GHolds m x n asize X XI) (hy : GHolds m y n asize Y YI) :
    Ends (plusCu ⟨n, 1, 1⟩ cellwiseMap r x y asize flag) m fun m' => GBecomes m m' r n asize (fun i t => put flag (R i t) (X i t + Y i t)) (fun i t => put flag (RI i t) (XI i t + YI i t)) :=
  plus_core ⟨n, 1, 1⟩ cellwiseMap flag r x y n n n asize m R RI X XI Y YI id id (fun kern => covers_cells kern n asize hn ha) own ax ay hr hx hy (fun _ _ => rfl) (fun _ _ => rfl)
    (fun _ h => h) fun _ h => h

/-- `OuterCmap` with `CtensorA_plus_cop` on the GPU, if `y` has at most 65535 cells. -/
theorem C499_outer [Add V] (flag : Bool) (r x y : GArr) (I J asize : Nat) (m : Buf V) (R RI X XI Y YI : Nat → Nat → V) (hI : I ≤ 2147483647) (hJ : J ≤ 65535) (ha : asize ≤ 1024)
    (own : GOwn r (I * J) asize) (ax : GApart r (I * J) x I asize) (ay : GApart r (I * J) y J asize) (hr : GHolds m r (I * J) asize R RI) (hx : GHolds m x I asize X XI)
    (hy : GHolds m y J asize Y YI) :
    Ends (plusCu ⟨I, J, 1⟩ (outerMap J) r x y asize flag) m fun m' =>
      (∀ i j t, i < I → j < J → t < asize → m' (r.re (i * J + j) t) = some (put flag (R (i * J + j) t) (X i t + Y j t)) ∧
        m' (r.im (i * J + j) t) = some (put flag (RI (i * J + j) t) (XI i t + YI j t))) ∧
      ∀ p, (∀ i t, i < I * J → t < asize → p ≠ r.re i t ∧ p ≠ r.im i t) → m' p = m p := by
  have two : ∀ {a b : Nat}, a < I → b < J → a * J + b < I * J := fun {a b} ha hb => by
    have : (a + 1) * J ≤ I * J := Nat.mul_le_mul_right _ ha
    rw [Nat.add_mul, Nat.one_mul] at this; omega
  have dv : ∀ {a b : Nat}, b < J → (a * J + b) / J = a ∧ (a * J + b) % J = b := fun {a b} hb => by
    constructor
    · rw [Nat.add_comm, Nat.add_mul_div_right _ _ (by omega), Nat.div_eq_of_lt hb, Nat.zero_add]
    · rw [Nat.add_comm, Nat.add_mul_mod_self_right, Nat.mod_eq_of_lt hb]
  have back : ∀ {i : Nat}, i < I * J → i / J < I ∧ i % J < J := fun {i} hi => by
    have hJ0 : 0 < J := by rcases Nat.eq_zero_or_pos J with h | h; (rw [h, Nat.mul_zero] at hi; omega); exact h
    exact ⟨(Nat.div_lt_iff_lt_mul hJ0).2 hi, Nat.mod_lt _ hJ0⟩
  have cov : ∀ kern, Covers (⟨⟨I, J, 1⟩, ⟨asize, 1, 1⟩, kern⟩ : Launch V) (fun q : Nat × Nat => q.1 < I * J ∧ q.2 < asize) fun q => ((outerMap J q.1).1, q.2.x) := fun kern => by
    refine covers_box _ _ _ _ _ (fun i => (⟨i.1 / J, i.1 % J, 0⟩, ⟨i.2, 0, 0⟩)) ?_ ?_ ?_ hI hJ (by dsimp only; omega) (by dsimp only; omega) (by dsimp only; omega)
    · rintro ⟨i, t⟩ ⟨hi, ht⟩
      obtain ⟨b1, b2⟩ := back hi
      exact ⟨⟨b1, b2, Nat.one_pos⟩, ht, Nat.one_pos, Nat.one_pos⟩
    · rintro ⟨i, t⟩ ⟨hi, ht⟩
      simp only [outerMap, Prod.mk.injEq, and_true]
      rw [Nat.mul_comm]; exact Nat.div_add_mod i J
    · intro bx by' bz tx ty tz h1 h2 h3 h4 h5 h6
      dsimp only [outerMap] at *
      obtain ⟨d1, d2⟩ := dv (a := bx) h2
      exact ⟨⟨two h1 h2, h4⟩, ⟨d1, d2, by omega⟩, rfl, by omega, by omega⟩
  by_cases hf : flag = false
  all_goals
    rw [plusCu]
    first | rw [if_pos hf] | rw [if_neg hf]
    refine (two_core (idx := fun q => ((outerMap J q.1).1, q.2.x)) (n := I * J) (asize := asize) (r := r) (fun i t => put flag (R i t) (X (i / J) t + Y (i % J) t))
      (fun i t => put flag (RI i t) (XI (i / J) t + YI (i % J) t)) (fun q => reads x y q.1.x q.1.y q.2.x) (cov _) own ?_ ?_ ?_).imp fun m' h => ⟨fun i j t hi hj ht => ?_, h.2⟩
    rotate_right
    · obtain ⟨g1, g2⟩ := h.1 (i * J + j) t (two hi hj) ht
      dsimp only at g1 g2
      rw [(dv hj).1, (dv hj).2] at g1 g2
      exact ⟨g1, g2⟩
    · intro q hq i t hi ht
      obtain ⟨⟨a1, a2, a3⟩, a4, a5, a6⟩ := mem_ids'.1 hq
      exact reads_apart ax ay a1 a2 a4 i t hi ht
    · intro q hq
      first
      | exact (Within.rd (.inl (.inl rfl))).bind fun _ => (Within.rd (.inl (.inr (.inl rfl)))).bind fun _ => (Within.wr (.inl rfl)).bind fun _ =>
          (Within.rd (.inl (.inr (.inr (.inl rfl))))).bind fun _ => (Within.rd (.inl (.inr (.inr (.inr rfl))))).bind fun _ => Within.wr (.inr rfl)
      | exact (Within.rd (.inl (.inl rfl))).bind fun _ => (Within.rd (.inl (.inr (.inl rfl)))).bind fun _ => (Within.inc (.inl rfl)).bind fun _ =>
          (Within.rd (.inl (.inr (.inr (.inl rfl))))).bind fun _ => (Within.rd (.inl (.inr (.inr (.inr rfl))))).bind fun _ => Within.inc (.inr rfl)
    · intro q hq
      obtain ⟨⟨a1, a2, a3⟩, a4, a5, a6⟩ := mem_ids'.1 hq
      obtain ⟨k1, k2⟩ := hx _ _ a1 a4
      obtain ⟨k3, k4⟩ := hy _ _ a2 a4
      have lt := two a1 a2
      obtain ⟨k5, k6⟩ := hr _ _ lt a4
      dsimp only [outerMap]
      rw [(dv a2).1, (dv a2).2]
      first
      | subst hf
      | rw [Bool.not_eq_false] at hf; subst hf
      first
      | exact plusK_run (map := outerMap J) k1 k3 k2 k4 k5 k6 (ax.ri _ _ _ _ lt a1 a4 a4) (ay.ri _ _ _ _ lt a2 a4 a4) (own.ne _ _ _ _ lt lt a4 a4)
      | exact addPlusK_run (map := outerMap J) k1 k3 k2 k4 k5 k6 (ax.ri _ _ _ _ lt a1 a4 a4) (ay.ri _ _ _ _ lt a2 a4 a4) (own.ne _ _ _ _ lt lt a4 a4)

example : GOwn ⟨0, 64, 32⟩ 2 4 ∧ GApart ⟨0, 64, 32⟩ 2 ⟨128, 192, 32⟩ 2 4 := by
  refine ⟨⟨?_, ?_, ?_⟩, ⟨?_, ?_, ?_, ?_⟩⟩ <;> intros <;> simp only [GArr.re, GArr.im] at * <;> omega

/-! ### C500: sums over cells -/

/-- `CtensorA_plus_accumulator_kernel`: one block per target; the sums over the sources are added to the targets. -/
theorem CMap.acc_core [AddCommMonoid V] (r x y : GArr) (n kx ky asize : Nat) (nAccum : Nat → Nat) (source : Nat → Nat → Nat × Nat) (m : Buf V) (R RI X XI Y YI : Nat → Nat → V)
    (hn : n ≤ 2147483647) (ha : asize ≤ 1024) (own : GOwn r n asize) (ax : GApart r n x kx asize) (ay : GApart r n y ky asize) (hr : GHolds m r n asize R RI)
    (hx : GHolds m x kx asize X XI) (hy : GHolds m y ky asize Y YI) (bx : ∀ b i, b < n → i < nAccum b → (source b i).1 < kx ∧ (source b i).2 < ky) :
    Ends (accCu n nAccum (fun b => b) source r x y asize) m fun m' => GBecomes m m' r n asize (fun b t => R b t + sumTo (nAccum b) fun i => X (source b i).1 t + Y (source b i).2 t)
      (fun b t => RI b t + sumTo (nAccum b) fun i => XI (source b i).1 t + YI (source b i).2 t) := by
  rw [accCu]
  refine two_core _ _ (fun q p => ∃ i, i < nAccum q.1.x ∧ reads x y (source q.1.x i).1 (source q.1.x i).2 q.2.x p) (covers_cells _ n asize hn ha) own ?_ ?_ ?_
  · intro q hq i t hi ht
    obtain ⟨⟨a1, a2, a3⟩, a4, a5, a6⟩ := mem_ids'.1 hq
    constructor
    · rintro ⟨k, hk, h⟩
      exact (reads_apart ax ay (bx _ _ a1 hk).1 (bx _ _ a1 hk).2 a4 i t hi ht).1 h
    · rintro ⟨k, hk, h⟩
      exact (reads_apart ax ay (bx _ _ a1 hk).1 (bx _ _ a1 hk).2 a4 i t hi ht).2 h
  · intro q hq
    refine (Within.rd (.inr (.inl rfl))).bind fun _ => (Within.rd (.inr (.inr rfl))).bind fun _ => (Within.loop fun i hi s => ?_).bind fun s =>
      (Within.wr (.inl rfl)).bind fun _ => Within.wr (.inr rfl)
    exact (Within.rd (.inl ⟨i, hi, .inl rfl⟩)).bind fun _ => (Within.rd (.inl ⟨i, hi, .inr (.inl rfl)⟩)).bind fun _ => (Within.rd (.inl ⟨i, hi, .inr (.inr (.inl rfl))⟩)).bind fun _ =>
      (Within.rd (.inl ⟨i, hi, .inr (.inr (.inr rfl))⟩)).bind fun _ => Within.ret _
  · rintro ⟨b, t⟩ hq
    obtain ⟨⟨a1, a2, a3⟩, a4, a5, a6⟩ := mem_ids'.1 hq
    dsimp only at a1 a4 ⊢
    obtain ⟨k5, k6⟩ := hr _ _ a1 a4
    have hl := Thr.run_loop (m := m) (nAccum b.x) (R b.x t.x, RI b.x t.x) (fun i (s : V × V) => do
        let xr ← Thr.rd (x.re (source b.x i).1 t.x)
        let yr ← Thr.rd (y.re (source b.x i).2 t.x)
        let xi ← Thr.rd (x.im (source b.x i).1 t.x)
        let yi ← Thr.rd (y.im (source b.x i).2 t.x)
        pure (s.1 + (xr + yr), s.2 + (xi + yi)))
      (fun k => (R b.x t.x + sumTo k fun i => X (source b.x i).1 t.x + Y (source b.x i).2 t.x, RI b.x t.x + sumTo k fun i => XI (source b.x i).1 t.x + YI (source b.x i).2 t.x))
      (by simp [sumTo]) (fun i hi => by
        obtain ⟨c1, c2⟩ := bx _ _ a1 hi
        obtain ⟨e1, e2⟩ := hx _ _ c1 a4
        obtain ⟨e3, e4⟩ := hy _ _ c2 a4
        simp only [Thr.run_bind, Thr.run_rd e1, Thr.run_rd e2, Thr.run_rd e3, Thr.run_rd e4, Res.ok_bind, Thr.run_ret]
        simp [sumTo, List.range_succ, add_assoc])
    rw [accK]
    simp only [Thr.run_bind, Thr.run_rd k5, Thr.run_rd k6, Res.ok_bind]
    rw [hl, Res.ok_bind]
    dsimp only
    rw [Thr.run_wr _ k5, Res.ok_bind]
    refine Thr.run_wr (w := RI b.x t.x) _ ?_
    dsimp only
    rw [if_neg (own.ne _ _ _ _ a1 a1 a4 a4).symm]; exact k6

/-- With the sources of `MVprodCmap`: the sums that `C493_mvprod` gives for the CPU. -/
theorem C500_mvprod [AddCommMonoid V] (r x y : GArr) (I J asize : Nat) (m : Buf V) (R RI X XI Y YI : Nat → Nat → V) (hn : I ≤ 2147483647) (ha : asize ≤ 1024) (own : GOwn r I asize)
    (ax : GApart r I x (I * J) asize) (ay : GApart r I y J asize) (hr : GHolds m r I asize R RI) (hx : GHolds m x (I * J) asize X XI) (hy : GHolds m y J asize Y YI) :
    Ends (accCu I (fun _ => J) (fun b => b) (mvSource J) r x y asize) m fun m' => GBecomes m m' r I asize (fun i t => R i t + sumTo J fun j => X (i * J + j) t + Y j t)
      (fun i t => RI i t + sumTo J fun j => XI (i * J + j) t + YI j t) :=
  acc_core r x y I (I * J) J asize (fun _ => J) (mvSource J) m R RI X XI Y YI hn ha own ax ay hr hx hy fun b i hb hi => ⟨by
    have : (b + 1) * J ≤ I * J := Nat.mul_le_mul_right _ hb
    rw [Nat.add_mul, Nat.one_mul] at this
    dsimp only [mvSource]; omega, hi⟩

/-- With the sources of `VMprodCmap`. -/
theorem C500_vmprod [AddCommMonoid V] (r x y : GArr) (I J asize : Nat) (m : Buf V) (R RI X XI Y YI : Nat → Nat → V) (hn : I ≤ 2147483647) (ha : asize ≤ 1024) (own : GOwn r I asize)
    (ax : GApart r I x J asize) (ay : GApart r I y (J * I) asize) (hr : GHolds m r I asize R RI) (hx : GHolds m x J asize X XI) (hy : GHolds m y (J * I) asize Y YI) :
    Ends (accCu I (fun _ => J) (fun b => b) (vmSource I) r x y asize) m fun m' => GBecomes m m' r I asize (fun i t => R i t + sumTo J fun j => X j t + Y (j * I + i) t)
      (fun i t => RI i t + sumTo J fun j => XI j t + YI (j * I + i) t) :=
  acc_core r x y I J (J * I) asize (fun _ => J) (vmSource I) m R RI X XI Y YI hn ha own ax ay hr hx hy fun b i hb hi => ⟨hi, by
    have : (i + 1) * I ≤ J * I := Nat.mul_le_mul_right _ hi
    rw [Nat.add_mul, Nat.one_mul] at this
    dsimp only [vmSource]; omega⟩

theorem CMap.sumTo_mul [AddCommMonoid V] (a b : Nat) (g : Nat → V) : sumTo (a * b) g = sumTo a fun i => sumTo b fun j => g (i * b + j) := by
  induction a with
  | zero => simp [sumTo]
  | succ a ih =>
    have e : sumTo (a + 1) (fun i => sumTo b fun j => g (i * b + j)) = sumTo a (fun i => sumTo b fun j => g (i * b + j)) + sumTo b fun j => g (a * b + j) := by
      simp [sumTo, List.range_succ]
    rw [e, ← ih, Nat.add_mul, Nat.one_mul]
    simp only [sumTo, List.range_add, List.map_append, List.sum_append, List.map_map]
    rfl

/-- With the sources of `Convolve2Cmap`: the sums that `C496_convolve` gives for the CPU. -/
theorem C500_convolve [AddCommMonoid V] (r x y : GArr) (I0 I1 J0 J1 X0 X1 asize : Nat) (m : Buf V) (R RI X XI Y YI : Nat → Nat → V) (hn : I0 * I1 ≤ 2147483647) (ha : asize ≤ 1024)
    (h0 : X0 + 1 = I0 + J0) (h1 : X1 + 1 = I1 + J1) (own : GOwn r (I0 * I1) asize) (ax : GApart r (I0 * I1) x (X0 * X1) asize) (ay : GApart r (I0 * I1) y (J0 * J1) asize)
    (hr : GHolds m r (I0 * I1) asize R RI) (hx : GHolds m x (X0 * X1) asize X XI) (hy : GHolds m y (J0 * J1) asize Y YI) :
    Ends (accCu (I0 * I1) (fun _ => J0 * J1) (fun b => b) (conv2Source I1 X1 J1) r x y asize) m fun m' =>
      (∀ i0 i1 t, i0 < I0 → i1 < I1 → t < asize →
        m' (r.re (i0 * I1 + i1) t) = some (R (i0 * I1 + i1) t + sumTo J0 fun j0 => sumTo J1 fun j1 => X ((i0 + j0) * X1 + (i1 + j1)) t + Y (j0 * J1 + j1) t) ∧
        m' (r.im (i0 * I1 + i1) t) = some (RI (i0 * I1 + i1) t + sumTo J0 fun j0 => sumTo J1 fun j1 => XI ((i0 + j0) * X1 + (i1 + j1)) t + YI (j0 * J1 + j1) t)) ∧
      ∀ p, (∀ i t, i < I0 * I1 → t < asize → p ≠ r.re i t ∧ p ≠ r.im i t) → m' p = m p := by
  have two : ∀ {a b c d : Nat}, a < c → b < d → a * d + b < c * d := fun {a b c d} ha hb => by
    have : (a + 1) * d ≤ c * d := Nat.mul_le_mul_right _ ha
    rw [Nat.add_mul, Nat.one_mul] at this; omega
  have dv : ∀ {a b J : Nat}, b < J → (a * J + b) / J = a ∧ (a * J + b) % J = b := fun {a b J} hb => by
    constructor
    · rw [Nat.add_comm, Nat.add_mul_div_right _ _ (by omega), Nat.div_eq_of_lt hb, Nat.zero_add]
    · rw [Nat.add_comm, Nat.add_mul_mod_self_right, Nat.mod_eq_of_lt hb]
  have back : ∀ {i I J : Nat}, i < I * J → i / J < I ∧ i % J < J := fun {i I J} hi => by
    have hJ0 : 0 < J := by rcases Nat.eq_zero_or_pos J with h | h; (rw [h, Nat.mul_zero] at hi; omega); exact h
    exact ⟨(Nat.div_lt_iff_lt_mul hJ0).2 hi, Nat.mod_lt _ hJ0⟩
  refine (acc_core r x y (I0 * I1) (X0 * X1) (J0 * J1) asize (fun _ => J0 * J1) (conv2Source I1 X1 J1) m R RI X XI Y YI hn ha own ax ay hr hx hy ?_).imp fun m' h =>
    ⟨fun i0 i1 t hi0 hi1 ht => ?_, h.2⟩
  · intro b i hb hi
    obtain ⟨b1, b2⟩ := back hb
    obtain ⟨b3, b4⟩ := back hi
    exact ⟨two (by omega) (by omega), hi⟩
  · obtain ⟨g1, g2⟩ := h.1 (i0 * I1 + i1) t (two hi0 hi1) ht
    rw [g1, g2]
    have key : ∀ (Z W : Nat → Nat → V), (sumTo (J0 * J1) fun j => Z (conv2Source I1 X1 J1 (i0 * I1 + i1) j).1 t + W (conv2Source I1 X1 J1 (i0 * I1 + i1) j).2 t) =
        sumTo J0 fun j0 => sumTo J1 fun j1 => Z ((i0 + j0) * X1 + (i1 + j1)) t + W (j0 * J1 + j1) t := fun Z W => by
      rw [sumTo_mul]
      unfold sumTo
      refine congrArg List.sum (List.map_congr_left fun j0 _ => congrArg List.sum (List.map_congr_left fun j1 hj1 => ?_))
      have hj := List.mem_range.1 hj1
      dsimp only [conv2Source]
      rw [(dv hi1).1, (dv hi1).2, (dv hj).1, (dv hj).2]
    dsimp only
    rw [key, key]
    exact ⟨rfl, rfl⟩

example : GOwn ⟨0, 64, 32⟩ 2 4 ∧ GApart ⟨0, 64, 32⟩ 2 ⟨128, 320, 32⟩ 6 4 := by
  refine ⟨⟨?_, ?_, ?_⟩, ⟨?_, ?_, ?_, ?_⟩⟩ <;> intros <;> simp only [GArr.re, GArr.im] at * <;> omega

/-! ### C501: the table of a mask -/

theorem CMap.at_ok {β : Type} {a : List β} {t : Nat} {o : β} (h : a[t]? = some o) : Res.get a t = .ok o := by
  unfold Res.get; rw [h]

theorem CMap.starts_length (l : Mask) (lp : Nat) : (l.starts lp).length = l.length := by
  induction l generalizing lp with
  | nil => rfl
  | cons p l ih => simp [Mask.starts, ih]

theorem CMap.flat_length (qs : List (Nat × Nat)) : (qs.flatMap fun q => [q.1, q.2]).length = 2 * qs.length := by
  induction qs with
  | nil => rfl
  | cons q qs ih => simp [List.flatMap_cons, ih]; omega

theorem CMap.entry_length (p : Nat × List (Nat × Nat)) : (Mask.entry p).length = 2 + 2 * p.2.length := by
  rw [Mask.entry, List.length_cons, List.length_cons, flat_length]; omega

theorem CMap.flat_get (qs : List (Nat × Nat)) (j : Nat) (q : Nat × Nat) (h : qs[j]? = some q) :
    (qs.flatMap fun q => [q.1, q.2])[2 * j]? = some q.1 ∧ (qs.flatMap fun q => [q.1, q.2])[2 * j + 1]? = some q.2 := by
  induction qs generalizing j with
  | nil => cases h
  | cons a qs ih =>
    cases j with
    | zero => simp at h; subst h; exact ⟨rfl, rfl⟩
    | succ j =>
      have := ih j (by simpa using h)
      rw [List.flatMap_cons]
      simpa [Nat.mul_add] using this

/-- Where list `b` starts and what stands there. -/
theorem CMap.table_at (l : Mask) (pre : List Nat) (b : Nat) (p : Nat × List (Nat × Nat)) (h : l[b]? = some p) :
    ∃ s, (l.starts pre.length)[b]? = some s ∧ ∀ k v, (Mask.entry p)[k]? = some v → (pre ++ l.flatMap Mask.entry)[s + k]? = some v := by
  induction l generalizing pre b with
  | nil => cases h
  | cons a l ih =>
    cases b with
    | zero =>
      simp at h; subst h
      refine ⟨pre.length, rfl, fun k v hk => ?_⟩
      rw [List.flatMap_cons, List.getElem?_append_right (by omega), Nat.add_sub_cancel_left, List.getElem?_append_left]
      · exact hk
      · exact (List.getElem?_eq_some_iff.1 hk).1
    | succ b =>
      obtain ⟨s, h1, h2⟩ := ih (pre ++ Mask.entry a) b (by simpa using h)
      refine ⟨s, ?_, fun k v hk => ?_⟩
      · rw [List.length_append, entry_length] at h1
        simpa [Mask.starts] using h1
      · have := h2 k v hk
        rwa [List.flatMap_cons, ← List.append_assoc]

/-- From the table that `prepare` writes the GPU gets back, for every block, the target, the number of pairs, and the pairs of its list. -/
theorem C501_table (l : Mask) (b : Nat) (t : Nat) (qs : List (Nat × Nat)) (h : l[b]? = some (t, qs)) :
    Mask.target l.table b = .ok t ∧ Mask.nAccum l.table b = .ok qs.length ∧ ∀ j q, qs[j]? = some q → Mask.source l.table b j = .ok q := by
  have hb : b < l.length := (List.getElem?_eq_some_iff.1 h).1
  obtain ⟨s, h1, h2⟩ := table_at l (l.starts l.length) b (t, qs) h
  rw [starts_length] at h1
  have e0 : Res.get l.table b = .ok s := at_ok (by rw [Mask.table, List.getElem?_append_left (by rw [starts_length]; exact hb)]; exact h1)
  have g : ∀ k v, (Mask.entry (t, qs))[k]? = some v → Res.get l.table (s + k) = .ok v := fun k v hk => at_ok (h2 k v hk)
  refine ⟨?_, ?_, fun j q hq => ?_⟩
  · rw [Mask.target, e0, Res.ok_bind]; exact g 0 t rfl
  · rw [Mask.nAccum, e0, Res.ok_bind]; exact g 1 _ rfl
  · obtain ⟨f1, f2⟩ := flat_get qs j q hq
    rw [Mask.source, e0, Res.ok_bind, Nat.add_assoc, g (2 + 2 * j) q.1 (by rw [Mask.entry, Nat.add_comm]; simpa using f1), Res.ok_bind,
      Nat.add_assoc, g (2 + 2 * j + 1) q.2 (by rw [Mask.entry, show 2 + 2 * j + 1 = 2 * j + 1 + 2 by omega]; simpa using f2), Res.ok_bind]

/-- The table is as long as `prepare` makes it. -/
theorem C501_length (l : Mask) : l.table.length = l.length + (l.map fun p => 2 + 2 * p.2.length).sum := by
  rw [Mask.table, List.length_append, starts_length, List.length_flatMap]
  congr 2
  exact List.map_congr_left fun p _ => entry_length p

example : Mask.table [(4, [(1, 2), (3, 0)]), (7, [(5, 6)])] = [2, 8, 4, 2, 1, 2, 3, 0, 7, 1, 5, 6] := by decide

/-- On the CPU the lists of a mask with different targets are summed into their targets. -/
theorem C501_accumulate [AddCommMonoid V] (op : Op V) (F : V → V → V) (hop : Cop op F) (mask : Mask) (r x y : Arr) (m : Buf V) (R X Y : Nat → V) (hr : Holds m r R) (hx : Holds m x X)
    (hy : Holds m y Y) (ax : Apart r x) (ay : Apart r y) (hd : (mask.map (·.1)).Nodup) (hin : ∀ p ∈ mask, p.1 < r.aasize ∧ ∀ q ∈ p.2, q.1 < x.aasize ∧ q.2 < y.aasize) :
    ∃ m', accumulate op mask r x y true m = .ok m' ∧ (∀ p ∈ mask, m' (r.cell p.1) = some (R p.1 + (p.2.map fun q => F (X q.1) (Y q.2)).sum)) ∧
      ∀ c, (∀ p ∈ mask, c ≠ r.cell p.1) → m' c = m c := by
  rw [accumulate, Res.assrt_true, Res.ok_bind]
  have run : ∀ (t : Nat), t < r.aasize → ∀ (qs : List (Nat × Nat)), (∀ q ∈ qs, q.1 < x.aasize ∧ q.2 < y.aasize) → ∀ (m' : Buf V) (c : V), m' (r.cell t) = some c →
      (∀ p, (∀ i, i < r.aasize → p ≠ r.cell i) → m' p = m p) →
      Res.forM qs m' (fun m q => op m (r.cell t) (x.cell q.1) (y.cell q.2) true) = .ok fun p => if p = r.cell t then some (c + (qs.map fun q => F (X q.1) (Y q.2)).sum) else m' p := by
    intro t ht qs
    induction qs with
    | nil =>
      intro _ m' c hc _
      rw [Res.forM_nil]; congr 1; funext p; by_cases hp : p = r.cell t <;> simp [hp, hc]
    | cons q qs ih =>
      intro hq m' c hc hm
      obtain ⟨b1, b2⟩ := hq q (by simp)
      rw [Res.forM_cons, hop m' _ _ _ (X q.1) (Y q.2) c true (by rw [hm _ fun i hi e => ax i _ hi b1 e.symm]; exact hx _ b1) (by rw [hm _ fun i hi e => ay i _ hi b2 e.symm]; exact hy _ b2) hc
        (ax _ _ ht b1) (ay _ _ ht b2), Res.ok_bind, ih (fun q hq' => hq q (by simp [hq'])) _ (c + F (X q.1) (Y q.2)) (by simp)
        (fun p hp => by simp only [if_neg (hp t ht)]; exact hm p hp)]
      congr 1; funext p; by_cases hp : p = r.cell t <;> simp [hp, add_assoc]
  have one : ∀ p ∈ mask, ∀ (m' : Buf V) (c : V), m' (r.cell p.1) = some c → (∀ q, (∀ i, i < r.aasize → q ≠ r.cell i) → m' q = m q) →
      accOne op r x y true p m' = .ok fun c' => if c' = r.cell p.1 then some (c + (p.2.map fun q => F (X q.1) (Y q.2)).sum) else m' c' := by
    rintro ⟨t, qs⟩ hp m' c hc hm
    obtain ⟨b1, b2⟩ := hin _ hp
    have := run t b1 qs b2 m' c hc hm
    cases qs with
    | nil => exact this
    | cons q qs => rw [accOne]; rw [Res.forM_cons] at this; exact this
  have inj : ∀ p ∈ mask, ∀ q ∈ mask, r.cell p.1 = r.cell q.1 → p = q := fun p hp q hq e => (List.inj_on_of_nodup_map hd) hp hq (cell_inj e)
  obtain ⟨m', e, h1, h2⟩ := cells_run mask (fun p => r.cell p.1) (fun p => R p.1 + (p.2.map fun q => F (X q.1) (Y q.2)).sum) (fun m p => accOne op r x y true p m) m
    (List.Nodup.of_map _ hd) inj (fun p hp => by rw [hr _ (hin p hp).1]; rfl) (fun p hp m' hm' => by
      have t1 : m' (r.cell p.1) = some (R p.1) := by rw [hm' _ fun q hq hne e => hne (inj p hp q hq e).symm]; exact hr _ (hin p hp).1
      rw [one p hp m' _ t1 fun c hc => hm' c fun q hq _ => hc _ (hin q hq).1, write_ok t1])
  exact ⟨m', e, h1, h2⟩

example : (([(1, [(0, 1), (1, 0)]), (0, [(1, 1)])] : Mask).map (·.1)).Nodup ∧ ∀ p ∈ ([(1, [(0, 1), (1, 0)]), (0, [(1, 1)])] : Mask), p.1 < 2 ∧ ∀ q ∈ p.2, q.1 < 2 ∧ q.2 < 2 := by decide

/-! ### C502: the older kernel -/

/-- `CtensorA_add_plus_cu` of cuda/CtensorA_add_plus.cu with `CellwiseBiCmap`: the real parts are right; to the imaginary parts the real parts of `y` are added. -/
theorem C502_imag_fails [Add V] (r x y : GArr) (n asize : Nat) (m : Buf V) (R RI X XI Y YI : Nat → Nat → V) (hn : n ≤ 2147483647) (ha : asize ≤ 1024) (own : GOwn r n asize)
    (ax : GApart r n x n asize) (ay : GApart r n y n asize) (hr : GHolds m r n asize R RI) (hx : GHolds m x n asize X XI) (hy : GHolds m y n asize Y YI) :
    Ends (addPlusCu ⟨n, 1, 1⟩ cellwiseMap r x y asize) m fun m' => GBecomes m m' r n asize (fun i t => R i t + (X i t + Y i t)) (fun i t => RI i t + (XI i t + Y i t)) := by
  rw [addPlusCu]
  refine two_core _ _ (fun q => reads x y q.1.x q.1.x q.2.x) (covers_cells _ n asize hn ha) own ?_ ?_ ?_
  · intro q hq i t hi ht
    obtain ⟨⟨a1, a2, a3⟩, a4, a5, a6⟩ := mem_ids'.1 hq
    exact reads_apart ax ay a1 a1 a4 i t hi ht
  · intro q hq
    exact (Within.rd (.inl (.inl rfl))).bind fun _ => (Within.rd (.inl (.inr (.inl rfl)))).bind fun _ => (Within.inc (.inl rfl)).bind fun _ =>
      (Within.rd (.inl (.inr (.inr (.inl rfl))))).bind fun _ => (Within.rd (.inl (.inr (.inl rfl)))).bind fun _ => Within.inc (.inr rfl)
  · intro q hq
    obtain ⟨⟨a1, a2, a3⟩, a4, a5, a6⟩ := mem_ids'.1 hq
    obtain ⟨k1, k2⟩ := hx _ _ a1 a4
    obtain ⟨k3, k4⟩ := hy _ _ a1 a4
    obtain ⟨k5, k6⟩ := hr _ _ a1 a4
    exact addPlusOldK_run (map := cellwiseMap) k1 k3 k2 k5 k6 (ax.ri _ _ _ _ a1 a1 a4 a4) (ay.rr _ _ _ _ a1 a1 a4 a4) (own.ne _ _ _ _ a1 a1 a4 a4)

/-- The real parts alone. -/
theorem C502_real_partial [Add V] (r x y : GArr) (n asize : Nat) (m : Buf V) (R RI X XI Y YI : Nat → Nat → V) (hn : n ≤ 2147483647) (ha : asize ≤ 1024) (own : GOwn r n asize)
    (ax : GApart r n x n asize) (ay : GApart r n y n asize) (hr : GHolds m r n asize R RI) (hx : GHolds m x n asize X XI) (hy : GHolds m y n asize Y YI) :
    Ends (addPlusCu ⟨n, 1, 1⟩ cellwiseMap r x y asize) m fun m' => ∀ i t, i < n → t < asize → m' (r.re i t) = some (R i t + (X i t + Y i t)) :=
  (C502_imag_fails r x y n asize m R RI X XI Y YI hn ha own ax ay hr hx hy).imp fun _ h i t hi ht => (h.1 i t hi ht).1

/-- With `MprodBiCmap` several blocks add to the same cell, and an addition can get lost: a row of one cell with two sources that hold 10 and 20 (both real parts of `x`, all
else is 0) ends with 20 in the result, not 30. -/
theorem C502_race_fails (m : Buf Int) (h : ∀ p, m p = some ([0, 0, 10, 20].getD p 0)) :
    ∃ m', Out (addPlusCu ⟨1, 1, 2⟩ (mprodMap 2) ⟨0, 1, 1⟩ ⟨2, 4, 1⟩ ⟨6, 8, 1⟩ 1) m (.ok m') ∧ m' 0 = some 20 := by
  refine ⟨fun p => if p = 1 then some 0 else if p = 0 then some 20 else m p, .ran rfl [0, 1, 0, 1, 0, 1, 0, 1, 0, 0, 0, 0, 1, 1, 1, 1] _ [.ret (), .ret ()] ?_ ?_ (.nil _), rfl⟩
  · have hs : (⟨⟨1, 1, 2⟩, ⟨1, 1, 1⟩, addPlusOldK ⟨0, 1, 1⟩ ⟨2, 4, 1⟩ ⟨6, 8, 1⟩ (mprodMap 2)⟩ : Launch Int).start =
        [addPlusOldK ⟨0, 1, 1⟩ ⟨2, 4, 1⟩ ⟨6, 8, 1⟩ (mprodMap 2) ⟨0, 0, 0⟩ ⟨0, 0, 0⟩, addPlusOldK ⟨0, 1, 1⟩ ⟨2, 4, 1⟩ ⟨6, 8, 1⟩ (mprodMap 2) ⟨0, 0, 1⟩ ⟨0, 0, 0⟩] := rfl
    rw [hs]
    simp [exec, step, addPlusOldK, mprodMap, GArr.re, GArr.im, Thr.inc, Thr.rd, Thr.wr, h, bind, Thr.bind, Res.bind]
    funext p
    by_cases h1 : p = 1
    · simp [h1]
    · by_cases h0 : p = 0 <;> simp [h0, h1]
  · intro t ht; simp only [List.mem_cons, List.not_mem_nil, or_false, or_self] at ht; rw [ht]; rfl

example : GHolds (fun p => some (p : Int)) ⟨0, 64, 32⟩ 2 4 (fun i t => ((0 + (i * 32 + t) : Nat) : Int)) (fun i t => ((64 + (i * 32 + t) : Nat) : Int)) := fun _ _ _ _ => ⟨rfl, rfl⟩

/-! ### C503: maps that do nothing on the GPU -/

/-- `MVprodCmap` with the result on the GPU returns without a launch. -/
theorem C503_mvprod_fails (op : Op V) (r x y : Arr) (I J : Nat) (flag : Bool) (m : Buf V) (hd : x.adims = [I, J]) (hR : r.aasize = I) (hY : y.aasize = J) (h0 : r.dev ≠ 0) :
    mvprod op r x y flag m = .ok m := by
  have a0 : x.adim 0 = .ok I := by simp [Arr.adim, Res.get, hd]
  have a1 : x.adim 1 = .ok J := by simp [Arr.adim, Res.get, hd]
  simp [mvprod, hd, a0, a1, hR, hY, h0, Res.assrt_true, Res.ok_bind]

/-- `VMprodCmap` likewise. -/
theorem C503_vmprod_fails (op : Op V) (r x y : Arr) (I J : Nat) (flag : Bool) (m : Buf V) (hd : y.adims = [J, I]) (hR : r.aasize = I) (hX : x.aasize = J) (h0 : r.dev ≠ 0) :
    vmprod op r x y flag m = .ok m := by
  have a0 : y.adim 0 = .ok J := by simp [Arr.adim, Res.get, hd]
  have a1 : y.adim 1 = .ok I := by simp [Arr.adim, Res.get, hd]
  simp [vmprod, hd, a0, a1, hR, hX, h0, Res.assrt_true, Res.ok_bind]

/-- `Convolve2Cmap` likewise. -/
theorem C503_convolve_fails (op : Op V) (r x y : Arr) (I0 I1 J0 J1 X0 X1 : Nat) (m : Buf V) (dr : r.adims = [I0, I1]) (dx : x.adims = [X0, X1]) (dy : y.adims = [J0, J1])
    (h1 : X0 + 1 = I0 + J0) (h2 : X1 + 1 = I1 + J1) (h0 : r.dev ≠ 0) : convolve2 op r x y m = .ok m := by
  have a0 : r.adim 0 = .ok I0 := by simp [Arr.adim, Res.get, dr]
  have a1 : r.adim 1 = .ok I1 := by simp [Arr.adim, Res.get, dr]
  have b0 : x.adim 0 = .ok X0 := by simp [Arr.adim, Res.get, dx]
  have b1 : x.adim 1 = .ok X1 := by simp [Arr.adim, Res.get, dx]
  have c0 : y.adim 0 = .ok J0 := by simp [Arr.adim, Res.get, dy]
  have c1 : y.adim 1 = .ok J1 := by simp [Arr.adim, Res.get, dy]
  have e0 : (X0 : Int) = I0 + J0 - 1 := by omega
  have e1 : (X1 : Int) = I1 + J1 - 1 := by omega
  simp [convolve2, dr, dx, dy, a0, a1, b0, b1, c0, c1, e0, e1, h0, Res.assrt_true, Res.ok_bind]

/-- `Convolve2BiCmap` asks for a grid with no block along `y`: the launch is refused, whatever the kernel. -/
theorem C503_grid_fails (I J asize : Nat) (map : D3 → Nat × Nat × Nat) [Add V] (r x y : GArr) (m : Buf V) (res : Res (Buf V))
    (h : Out (addPlusCu ⟨I, 0, J⟩ map r x y asize) m res) : res = .ok m := by
  have hv : (⟨⟨I, 0, J⟩, ⟨asize, 1, 1⟩, addPlusOldK r x y map⟩ : Launch V).valid = false := by simp [Launch.valid]
  rw [addPlusCu] at h
  cases h with
  | skip _ hr => cases hr; rfl
  | ran hv' => rw [hv] at hv'; cases hv'
  | bad hv' => rw [hv] at hv'; cases hv'

example : (⟨0, [2], 1⟩ : Arr).dev ≠ 0 ∧ (⟨0, [2], 1⟩ : Arr).aasize = 2 ∧ (⟨4, [2, 3], 1⟩ : Arr).adims = [2, 3] := by decide

end Cnine
