import Verif.Lemmas.Gpu
import Verif.Model.GpuR

/-!
# Launches in which every thread has one cell
-/

namespace Cnine

variable {α ι : Type}

namespace Gpu

/-- A thread that, started in `m`, puts `v` in `dst` and reads besides `dst` only cells of `S`. -/
structure One (m : Buf α) (t : Thr α Unit) (dst : Nat) (v : α) (S : Nat → Prop) : Prop where
  within : Within S (· = dst) t
  run : t.run m = .ok (fun p => if p = dst then some v else m p, ())

theorem One.congr {m m' : Buf α} {t : Thr α Unit} {dst : Nat} {v : α} {S : Nat → Prop} (h : One m t dst v S) (hd : m' dst = m dst) (hS : ∀ p, S p → m' p = m p) : One m' t dst v S := by
  obtain ⟨m2, e1, e2, e3⟩ := run_congr t h.within m m' (fun p hp => by
    rcases hp with hp | hp
    · exact (hS p hp).symm
    · rw [hp, hd]) _ _ h.run
  refine ⟨h.within, ?_⟩
  rw [e1]
  congr 2
  funext p
  by_cases hp : p = dst
  · rw [← e2 p (.inr hp), if_pos hp, if_pos hp]
  · rw [e3 p hp, if_neg hp]

theorem Ends.cells {l : Launch α} {m : Buf α} (D : ι → Prop) (c : ι → Nat) (v : ι → α) (S : ι → Nat → Prop) (idx : D3 × D3 → ι) (hv : (∃ i, D i) → l.valid = true)
    (hD : ∀ q ∈ l.ids, D (idx q)) (hinj : ∀ q ∈ l.ids, ∀ q' ∈ l.ids, idx q = idx q' → q = q') (hsurj : ∀ i, D i → ∃ q ∈ l.ids, idx q = i)
    (hone : ∀ q ∈ l.ids, One m (l.kern q.1 q.2) (c (idx q)) (v (idx q)) (S (idx q))) (cinj : ∀ i j, D i → D j → c i = c j → i = j)
    (hS : ∀ i j, D i → D j → i ≠ j → ¬ S j (c i)) : Ends [l] m fun m' => Upd m m' D c v := by
  by_cases hv' : l.valid = true
  · refine (Ends.own hv' (fun q => S (idx q)) (fun q p => p = c (idx q)) (fun q p => if p = c (idx q) then some (v (idx q)) else m p) (fun q hq => (hone q hq).within) ?_
      fun q hq => (hone q hq).run).imp fun m' h => ⟨fun i hi => ?_, fun p hp => ?_⟩
    · intro q hq q' hq' hne p hp
      have hne' : idx q ≠ idx q' := fun e => hne (hinj q hq q' hq' e)
      subst hp
      exact ⟨fun e => hne' (cinj _ _ (hD q hq) (hD q' hq') e), hS _ _ (hD q hq) (hD q' hq') hne'⟩
    · obtain ⟨q, hq, rfl⟩ := hsurj i hi
      rw [h.1 q hq _ rfl, if_pos rfl]
    · exact h.2 p fun q hq => hp _ (hD q hq)
  · have hno : ∀ i, ¬ D i := fun i hi => hv' (hv ⟨i, hi⟩)
    exact Ends.skip (by simpa using hv') (Ends.nil ⟨fun i hi => absurd hi (hno i), fun _ _ => rfl⟩)

theorem Upd.union {m m1 m2 : Buf α} {D1 D2 : ι → Prop} {c : ι → Nat} {v : ι → α} (h1 : Upd m m1 D1 c v) (h2 : Upd m1 m2 D2 c v) (hd : ∀ i j, D1 i → D2 j → c i ≠ c j) :
    Upd m m2 (fun i => D1 i ∨ D2 i) c v := by
  refine ⟨fun i hi => ?_, fun p hp => ?_⟩
  · rcases hi with hi | hi
    · rw [h2.2 _ fun j hj => hd i j hi hj]
      exact h1.1 i hi
    · exact h2.1 i hi
  · rw [h2.2 p fun i hi => hp i (.inr hi)]
    exact h1.2 p fun i hi => hp i (.inl hi)

theorem Upd.congr {m m' : Buf α} {D D' : ι → Prop} {c : ι → Nat} {v : ι → α} (h : Upd m m' D c v) (hD : ∀ i, D' i ↔ D i) : Upd m m' D' c v :=
  ⟨fun i hi => h.1 i ((hD i).1 hi), fun p hp => h.2 p fun i hi => hp i ((hD i).2 hi)⟩

/-- How the threads of a launch stand for the entries in `D`. -/
structure Covers (l : Launch α) (D : ι → Prop) (idx : D3 × D3 → ι) : Prop where
  valid : (∃ i, D i) → l.valid = true
  mem : ∀ q ∈ l.ids, D (idx q)
  inj : ∀ q ∈ l.ids, ∀ q' ∈ l.ids, idx q = idx q' → q = q'
  surj : ∀ i, D i → ∃ q ∈ l.ids, idx q = i

/-- What two launches that share the entries do. -/
theorem Ends.cells2 {l1 l2 : Launch α} {m : Buf α} (D1 D2 D : ι → Prop) (c : ι → Nat) (v : ι → α) (S : ι → Nat → Prop) (idx1 idx2 : D3 × D3 → ι) (h1 : Covers l1 D1 idx1)
    (h2 : Covers l2 D2 idx2) (hdisj : ∀ i, D1 i → ¬ D2 i) (hD : ∀ i, D i ↔ D1 i ∨ D2 i) (o1 : ∀ q ∈ l1.ids, One m (l1.kern q.1 q.2) (c (idx1 q)) (v (idx1 q)) (S (idx1 q)))
    (o2 : ∀ q ∈ l2.ids, One m (l2.kern q.1 q.2) (c (idx2 q)) (v (idx2 q)) (S (idx2 q))) (cinj : ∀ i j, D i → D j → c i = c j → i = j)
    (hS : ∀ i j, D i → D j → i ≠ j → ¬ S j (c i)) : Ends [l1, l2] m fun m' => Upd m m' D c v := by
  have i1 : ∀ i, D1 i → D i := fun i hi => (hD i).2 (.inl hi)
  have i2 : ∀ i, D2 i → D i := fun i hi => (hD i).2 (.inr hi)
  have hne : ∀ i j, D1 i → D2 j → i ≠ j := fun i j hi hj e => hdisj i hi (e ▸ hj)
  refine (Ends.cells D1 c v S idx1 h1.valid h1.mem h1.inj h1.surj o1 (fun i j hi hj => cinj i j (i1 i hi) (i1 j hj)) fun i j hi hj => hS i j (i1 i hi) (i1 j hj)).seq fun m1 u1 => ?_
  refine (Ends.cells D2 c v S idx2 h2.valid h2.mem h2.inj h2.surj (fun q hq => (o2 q hq).congr ?_ ?_) (fun i j hi hj => cinj i j (i2 i hi) (i2 j hj))
    fun i j hi hj => hS i j (i2 i hi) (i2 j hj)).imp fun m2 u2 => (u1.union u2 fun i j hi hj e => hne i j hi hj (cinj i j (i1 i hi) (i2 j hj) e)).congr hD
  · exact u1.2 _ fun i hi e => hne i _ hi (h2.mem q hq) (cinj _ _ (i2 _ (h2.mem q hq)) (i1 i hi) e).symm
  · intro p hp
    refine u1.2 p fun i hi e => ?_
    subst e
    exact hS i _ (i1 i hi) (i2 _ (h2.mem q hq)) (hne i _ hi (h2.mem q hq)) hp

theorem Ends.covers {l : Launch α} {m : Buf α} {D : ι → Prop} {c : ι → Nat} {v : ι → α} {S : ι → Nat → Prop} {idx : D3 × D3 → ι} (h : Covers l D idx)
    (hone : ∀ q ∈ l.ids, One m (l.kern q.1 q.2) (c (idx q)) (v (idx q)) (S (idx q))) (cinj : ∀ i j, D i → D j → c i = c j → i = j)
    (hS : ∀ i j, D i → D j → i ≠ j → ¬ S j (c i)) : Ends [l] m fun m' => Upd m m' D c v := Ends.cells D c v S idx h.valid h.mem h.inj h.surj hone cinj hS

/-- The value a kernel gives the cell. -/
def Kind.val [Add α] [Mul α] (k : Kind α) (a b : α) : α :=
  match k with
  | .copy => b
  | .add => a + b
  | .addL c => a + c * b
  | .addR c => a + b * c
  | .copyR c => b * c

theorem Kind.one [Add α] [Mul α] (k : Kind α) {m : Buf α} {r x : Nat} {a b : α} (hr : m r = some a) (hx : m x = some b) : One m (k.thr r x) r (k.val a b) fun p => p = x ∧ p ≠ r := by
  refine ⟨?_, ?_⟩
  · refine (Within.rd ?_).bind fun v => ?_
    · by_cases e : x = r
      · exact .inr e
      · exact .inl ⟨rfl, e⟩
    · cases k
      · exact Within.wr rfl
      · exact Within.inc rfl
      · exact Within.inc rfl
      · exact Within.inc rfl
      · exact Within.wr rfl
  · rw [Kind.thr, Thr.run_bind, Thr.run_rd hx, Res.ok_bind]
    cases k
    · exact Thr.run_wr _ hr
    · exact Thr.run_inc _ hr
    · exact Thr.run_inc _ hr
    · exact Thr.run_inc _ hr
    · exact Thr.run_wr _ hr

/-- A launch of a kernel on two views. -/
theorem Ends.kind [Add α] [Mul α] (k : Kind α) {l : Launch α} {m : Buf α} {D : ι → Prop} {rc xc : ι → Nat} {a b : ι → α} {idx : D3 × D3 → ι} (h : Meets m D rc xc a b) (hc : Covers l D idx)
    (hk : ∀ q ∈ l.ids, l.kern q.1 q.2 = k.thr (rc (idx q)) (xc (idx q))) : Ends [l] m fun m' => Upd m m' D rc fun i => k.val (a i) (b i) :=
  Ends.covers (S := fun i p => p = xc i ∧ p ≠ rc i) hc (fun q hq => by
    rw [hk q hq]
    exact k.one (h.rval _ (hc.mem q hq)) (h.xval _ (hc.mem q hq))) h.inj fun i j hi hj hne e => hne (h.apart i j hi hj e.1)

theorem Ends.kind2 [Add α] [Mul α] (k : Kind α) {l1 l2 : Launch α} {m : Buf α} {D D1 D2 : ι → Prop} {rc xc : ι → Nat} {a b : ι → α} {idx1 idx2 : D3 × D3 → ι} (h : Meets m D rc xc a b)
    (h1 : Covers l1 D1 idx1) (h2 : Covers l2 D2 idx2) (hdisj : ∀ i, D1 i → ¬ D2 i) (hD : ∀ i, D i ↔ D1 i ∨ D2 i)
    (k1 : ∀ q ∈ l1.ids, l1.kern q.1 q.2 = k.thr (rc (idx1 q)) (xc (idx1 q))) (k2 : ∀ q ∈ l2.ids, l2.kern q.1 q.2 = k.thr (rc (idx2 q)) (xc (idx2 q))) :
    Ends [l1, l2] m fun m' => Upd m m' D rc fun i => k.val (a i) (b i) :=
  Ends.cells2 D1 D2 D rc _ (fun i p => p = xc i ∧ p ≠ rc i) idx1 idx2 h1 h2 hdisj hD (fun q hq => by
    have hd := (hD _).2 (.inl (h1.mem q hq))
    rw [k1 q hq]
    exact k.one (h.rval _ hd) (h.xval _ hd)) (fun q hq => by
    have hd := (hD _).2 (.inr (h2.mem q hq))
    rw [k2 q hq]
    exact k.one (h.rval _ hd) (h.xval _ hd)) h.inj fun i j hi hj hne e => hne (h.apart i j hi hj e.1)

/-! ### The ways the entries are given to blocks and threads -/

theorem mem_ids' {l : Launch α} {bx by' bz tx ty tz : Nat} : (((⟨bx, by', bz⟩ : D3), (⟨tx, ty, tz⟩ : D3)) ∈ l.ids) ↔
    (bx < l.blocks.x ∧ by' < l.blocks.y ∧ bz < l.blocks.z) ∧ tx < l.threads.x ∧ ty < l.threads.y ∧ tz < l.threads.z := by
  rw [Launch.mem_ids, D3.mem_all, D3.mem_all]

theorem valid_iff {l : Launch α} : l.valid = true ↔ (0 < l.blocks.x ∧ 0 < l.blocks.y ∧ 0 < l.blocks.z ∧ 0 < l.threads.x ∧ 0 < l.threads.y ∧ 0 < l.threads.z ∧
    l.blocks.x ≤ 2147483647 ∧ l.blocks.y ≤ 65535 ∧ l.blocks.z ≤ 65535 ∧ l.threads.x * l.threads.y * l.threads.z ≤ 1024 ∧ l.threads.z ≤ 64) := by
  rw [Launch.valid, decide_eq_true_iff]

/-- The entries of a vector. -/
def box1 (n : Nat) (i : Nat) : Prop := i < n

/-- The entries of a matrix. -/
def box2 (n0 n1 : Nat) (q : Nat × Nat) : Prop := q.1 < n0 ∧ q.2 < n1

/-- The entries of a tensor with three axes. -/
def box3 (n0 n1 n2 : Nat) (q : Nat × Nat × Nat) : Prop := q.1 < n0 ∧ q.2.1 < n1 ∧ q.2.2 < n2

/-- The conditions of `covers_box`. -/
macro "box" : tactic => `(tactic| first | (dsimp only [box1, box2, box3]; omega) | (intros; dsimp only [box1, box2, box3] at *; omega) | (intros; rfl) | (intros; exact Prod.ext rfl (by dsimp only [box1, box2, box3] at *; omega)))

/-- Entries with up to six indices, those of the block and those of the thread. -/
theorem covers_box (B T : D3) (kern : D3 → D3 → Thr α Unit) (D : ι → Prop) (idx : D3 × D3 → ι) (inv : ι → D3 × D3)
    (hmem : ∀ i, D i → ((inv i).1.x < B.x ∧ (inv i).1.y < B.y ∧ (inv i).1.z < B.z) ∧ (inv i).2.x < T.x ∧ (inv i).2.y < T.y ∧ (inv i).2.z < T.z)
    (hl : ∀ i, D i → idx (inv i) = i)
    (hr : ∀ bx by' bz tx ty tz, bx < B.x → by' < B.y → bz < B.z → tx < T.x → ty < T.y → tz < T.z →
      let q := inv (idx (⟨bx, by', bz⟩, ⟨tx, ty, tz⟩)); D (idx (⟨bx, by', bz⟩, ⟨tx, ty, tz⟩)) ∧ (q.1.x = bx ∧ q.1.y = by' ∧ q.1.z = bz) ∧ q.2.x = tx ∧ q.2.y = ty ∧ q.2.z = tz)
    (h1 : B.x ≤ 2147483647) (h2 : B.y ≤ 65535) (h3 : B.z ≤ 65535) (h4 : T.x * T.y * T.z ≤ 1024) (h5 : T.z ≤ 64) : Covers ⟨B, T, kern⟩ D idx := by
  have hr' : ∀ q ∈ (⟨B, T, kern⟩ : Launch α).ids, inv (idx q) = q := by
    rintro ⟨⟨bx, by', bz⟩, ⟨tx, ty, tz⟩⟩ hq
    obtain ⟨⟨a1, a2, a3⟩, a4, a5, a6⟩ := mem_ids'.1 hq
    obtain ⟨_, ⟨b1, b2, b3⟩, b4, b5, b6⟩ := hr _ _ _ _ _ _ a1 a2 a3 a4 a5 a6
    exact Prod.ext (by cases e : (inv (idx (⟨bx, by', bz⟩, ⟨tx, ty, tz⟩))).1; rw [e] at b1 b2 b3; cases b1; cases b2; cases b3; rfl)
      (by cases e : (inv (idx (⟨bx, by', bz⟩, ⟨tx, ty, tz⟩))).2; rw [e] at b4 b5 b6; cases b4; cases b5; cases b6; rfl)
  refine ⟨fun ⟨i, hi⟩ => valid_iff.2 ?_, fun q hq => ?_, fun q hq q' hq' e => ?_, fun i hi => ⟨inv i, ?_, hl i hi⟩⟩
  · have := hmem i hi
    dsimp only
    refine ⟨?_, ?_, ?_, ?_, ?_, ?_, h1, h2, h3, h4, h5⟩ <;> omega
  · obtain ⟨⟨bx, by', bz⟩, ⟨tx, ty, tz⟩⟩ := q
    obtain ⟨⟨a1, a2, a3⟩, a4, a5, a6⟩ := mem_ids'.1 hq
    exact (hr _ _ _ _ _ _ a1 a2 a3 a4 a5 a6).1
  · rw [← hr' q hq, ← hr' q' hq', e]
  · exact mem_ids'.2 (hmem i hi)

end Gpu

end Cnine
