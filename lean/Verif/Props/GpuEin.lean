import Verif.Spec.GpuEin
import Verif.Props.GpuConv

/-!
# What the products of tensors on the GPU do
-/

namespace Cnine

open Gpu Finset

variable {α ι κ μ : Type}

namespace Gpu

theorem ix1_0 (b t : D3) : ix1 0 b t = b.x := rfl

theorem ix1_1 (b t : D3) : ix1 1 b t = t.x := rfl

theorem ix2_0 (b t : D3) : ix2 0 b t = (b.x, b.y) := rfl

theorem ix2_1 (b t : D3) : ix2 1 b t = (b.x, t.x) := rfl

theorem ix2_2 (b t : D3) : ix2 2 b t = (t.x, t.y) := rfl

theorem ix3_0 (b t : D3) : ix3 0 b t = (b.x, b.y, b.z) := rfl

theorem ix3_1 (b t : D3) : ix3 1 b t = (b.x, b.y, t.x) := rfl

theorem ix3_2 (b t : D3) : ix3 2 b t = (b.x, t.x, t.y) := rfl

theorem ix3_3 (b t : D3) : ix3 3 b t = (t.x, t.y, t.z) := rfl

/-- The conditions of `covers_box` for the index functions. -/
macro "boxe" : tactic => `(tactic| first | (intros; rfl) | (intros; dsimp only [box1, box2, box3, ix1_0, ix1_1, ix2_0, ix2_1, ix2_2, ix3_0, ix3_1, ix3_2, ix3_3] at *; omega) | (intro bx by' bz tx ty tz a1 a2 a3 a4 a5 a6; dsimp only [box1, box2, box3, ix1_0, ix1_1, ix2_0, ix2_1, ix2_2, ix3_0, ix3_1, ix3_2, ix3_3] at *; omega) | (intro bx by' bz tx ty tz a1 a2 a3 a4 a5 a6; exact ⟨trivial, by dsimp only at *; omega⟩))

theorem Accum.fma [Add α] [Mul α] {m : Buf α} {R W : Nat → Prop} {p q : Nat} {u v : α} (hx : m p = some u) (hy : m q = some v) (rx : R p) (ry : R q) : Accum m R W (fma p q) (u * v) := by
  refine ⟨fun t => ?_, fun t => ?_⟩
  · rw [Gpu.fma, Thr.run_bind, Thr.run_rd hx, Res.ok_bind, Thr.run_bind, Thr.run_rd hy, Res.ok_bind]
    rfl
  · exact (Within.rd (.inl rx)).bind fun _ => (Within.rd (.inl ry)).bind fun _ => Within.ret _

theorem ein0_one [Add α] [Mul α] {m : Buf α} {R : Nat → Prop} {p q dst : Nat} {u v a : α} (ha : m dst = some a) (hx : m p = some u) (hy : m q = some v) (rx : R p) (ry : R q) :
    One m (ein0 p q dst) dst (a + u * v) R := by
  refine ⟨(Within.rd (.inl rx)).bind fun _ => (Within.rd (.inl ry)).bind fun _ => Within.inc rfl, ?_⟩
  rw [ein0, Thr.run_bind, Thr.run_rd hx, Res.ok_bind, Thr.run_bind, Thr.run_rd hy, Res.ok_bind]
  exact Thr.run_inc _ ha

theorem ein1_one [AddCommMonoid α] [Mul α] {m : Buf α} {R : Nat → Prop} {J0 dst : Nat} {p q : Nat → Nat} {u v : Nat → α} {a : α} (ha : m dst = some a)
    (h : ∀ j, j < J0 → m (p j) = some (u j) ∧ m (q j) = some (v j) ∧ R (p j) ∧ R (q j)) : One m (ein1 J0 p q dst) dst (a + ∑ j ∈ range J0, u j * v j) R :=
  Accum.one (f := fun t => Thr.loop J0 t fun j0 t => fma (p j0) (q j0) t) (Accum.loop (f := fun j0 t => fma (p j0) (q j0) t) fun j hj => by
    obtain ⟨h1, h2, h3, h4⟩ := h j hj
    exact Accum.fma h1 h2 h3 h4) ha

theorem ein2_one [AddCommMonoid α] [Mul α] {m : Buf α} {R : Nat → Prop} {J0 J1 dst : Nat} {p q : Nat → Nat → Nat} {u v : Nat → Nat → α} {a : α} (ha : m dst = some a)
    (h : ∀ j k, j < J0 → k < J1 → m (p j k) = some (u j k) ∧ m (q j k) = some (v j k) ∧ R (p j k) ∧ R (q j k)) :
    One m (ein2 J0 J1 p q dst) dst (a + ∑ j ∈ range J0, ∑ k ∈ range J1, u j k * v j k) R :=
  Accum.one (f := fun t => Thr.loop J0 t fun j0 t => Thr.loop J1 t fun j1 t => fma (p j0 j1) (q j0 j1) t)
    (Accum.loop (f := fun j0 t => Thr.loop J1 t fun j1 t => fma (p j0 j1) (q j0 j1) t) fun j hj => Accum.loop (f := fun j1 t => fma (p j j1) (q j j1) t) fun k hk => by
      obtain ⟨h1, h2, h3, h4⟩ := h j k hj hk
      exact Accum.fma h1 h2 h3 h4) ha

section

variable [AddCommMonoid α] {m : Buf α} {E : κ → Prop} {d : κ → Nat} {b : κ → α} {F : μ → Prop} {e : μ → Nat} {b' : μ → α}

theorem Ends.launch0 {c : Nat} {a v : α} {k : D3 → D3 → Thr α Unit} (hr : Owns m (fun _ : Unit => True) (fun _ => c) fun _ => a) (hx : Reads m (fun _ : Unit => True) (fun _ => c) E d b)
    (hy : Reads m (fun _ : Unit => True) (fun _ => c) F e b') (h : ∀ B T, One m (k B T) c (a + v) (both E d F e)) :
    Ends [⟨⟨1, 1, 1⟩, ⟨1, 1, 1⟩, k⟩] m fun m' => Upd m m' (fun _ : Unit => True) (fun _ => c) fun _ => a + v := by
  refine Ends.sums (v := fun _ => v) (idx := fun _ => ()) (covers_box _ _ _ _ _ (fun _ => (⟨0, 0, 0⟩, ⟨0, 0, 0⟩)) ?_ ?_ ?_ ?_ ?_ ?_ ?_ ?_) hr hx hy fun q hq => h _ _
  all_goals boxe

theorem Ends.launch1 {n0 : Nat} {c : Nat → Nat} {a v : Nat → α} {k : Nat → D3 → D3 → Thr α Unit} (h0 : n0 ≤ 2147483647) (hr : Owns m (box1 n0) c a) (hx : Reads m (box1 n0) c E d b)
    (hy : Reads m (box1 n0) c F e b') (h : ∀ t B T, ix1 t B T < n0 → One m (k t B T) (c (ix1 t B T)) (a (ix1 t B T) + v (ix1 t B T)) (both E d F e)) :
    Ends (Gpu.launch1 n0 k) m fun m' => Upd m m' (box1 n0) c fun i => a i + v i := by
  rw [Gpu.launch1]
  split
  · have hc : Covers (⟨⟨1, 1, 1⟩, ⟨n0, 1, 1⟩, k 1⟩ : Launch α) (box1 n0) fun q => ix1 1 q.1 q.2 := by
      refine covers_box _ _ _ _ _ (fun i => (⟨0, 0, 0⟩, ⟨i, 0, 0⟩)) ?_ ?_ ?_ ?_ ?_ ?_ ?_ ?_ <;> boxe
    exact Ends.sums hc hr hx hy fun q hq => h 1 _ _ (hc.mem q hq)
  · have hc : Covers (⟨⟨n0, 1, 1⟩, ⟨1, 1, 1⟩, k 0⟩ : Launch α) (box1 n0) fun q => ix1 0 q.1 q.2 := by
      refine covers_box _ _ _ _ _ (fun i => (⟨i, 0, 0⟩, ⟨0, 0, 0⟩)) ?_ ?_ ?_ ?_ ?_ ?_ ?_ ?_ <;> boxe
    exact Ends.sums hc hr hx hy fun q hq => h 0 _ _ (hc.mem q hq)

theorem Ends.launch2 {n0 n1 : Nat} {c : Nat × Nat → Nat} {a v : Nat × Nat → α} {k : Nat → D3 → D3 → Thr α Unit} (h0 : n0 ≤ 2147483647) (h1 : n1 ≤ 65535) (hr : Owns m (box2 n0 n1) c a)
    (hx : Reads m (box2 n0 n1) c E d b) (hy : Reads m (box2 n0 n1) c F e b')
    (h : ∀ t B T, box2 n0 n1 (ix2 t B T) → One m (k t B T) (c (ix2 t B T)) (a (ix2 t B T) + v (ix2 t B T)) (both E d F e)) :
    Ends (Gpu.launch2 n0 n1 k) m fun m' => Upd m m' (box2 n0 n1) c fun i => a i + v i := by
  rw [Gpu.launch2]
  split
  · have hc : Covers (⟨⟨1, 1, 1⟩, ⟨n0, n1, 1⟩, k 2⟩ : Launch α) (box2 n0 n1) fun q => ix2 2 q.1 q.2 := by
      refine covers_box _ _ _ _ _ (fun i => (⟨0, 0, 0⟩, ⟨i.1, i.2, 0⟩)) ?_ ?_ ?_ ?_ ?_ ?_ ?_ ?_ <;> boxe
    exact Ends.sums hc hr hx hy fun q hq => h 2 _ _ (hc.mem q hq)
  · split
    · have hc : Covers (⟨⟨n0, 1, 1⟩, ⟨n1, 1, 1⟩, k 1⟩ : Launch α) (box2 n0 n1) fun q => ix2 1 q.1 q.2 := by
        refine covers_box _ _ _ _ _ (fun i => (⟨i.1, 0, 0⟩, ⟨i.2, 0, 0⟩)) ?_ ?_ ?_ ?_ ?_ ?_ ?_ ?_ <;> boxe
      exact Ends.sums hc hr hx hy fun q hq => h 1 _ _ (hc.mem q hq)
    · have hc : Covers (⟨⟨n0, n1, 1⟩, ⟨1, 1, 1⟩, k 0⟩ : Launch α) (box2 n0 n1) fun q => ix2 0 q.1 q.2 := by
        refine covers_box _ _ _ _ _ (fun i => (⟨i.1, i.2, 0⟩, ⟨0, 0, 0⟩)) ?_ ?_ ?_ ?_ ?_ ?_ ?_ ?_ <;> boxe
      exact Ends.sums hc hr hx hy fun q hq => h 0 _ _ (hc.mem q hq)

variable {n0 n1 n2 : Nat} {k : D3 → D3 → Thr α Unit}

omit [AddCommMonoid α] in
theorem cov33 (h : n0 * n1 * n2 ≤ 1024) (h2 : n2 ≤ 64) : Covers (⟨⟨1, 1, 1⟩, ⟨n0, n1, n2⟩, k⟩ : Launch α) (box3 n0 n1 n2) fun q => ix3 3 q.1 q.2 := by
  refine covers_box _ _ _ _ _ (fun i => (⟨0, 0, 0⟩, ⟨i.1, i.2.1, i.2.2⟩)) ?_ ?_ ?_ ?_ ?_ ?_ ?_ ?_ <;> boxe

omit [AddCommMonoid α] in
theorem cov32 (h0 : n0 ≤ 2147483647) (h : n1 * n2 ≤ 1024) : Covers (⟨⟨n0, 1, 1⟩, ⟨n1, n2, 1⟩, k⟩ : Launch α) (box3 n0 n1 n2) fun q => ix3 2 q.1 q.2 := by
  refine covers_box _ _ _ _ _ (fun i => (⟨i.1, 0, 0⟩, ⟨i.2.1, i.2.2, 0⟩)) ?_ ?_ ?_ ?_ ?_ ?_ ?_ ?_ <;> boxe

omit [AddCommMonoid α] in
theorem cov31 (h0 : n0 ≤ 2147483647) (h1 : n1 ≤ 65535) (h : n2 ≤ 1024) : Covers (⟨⟨n0, n1, 1⟩, ⟨n2, 1, 1⟩, k⟩ : Launch α) (box3 n0 n1 n2) fun q => ix3 1 q.1 q.2 := by
  refine covers_box _ _ _ _ _ (fun i => (⟨i.1, i.2.1, 0⟩, ⟨i.2.2, 0, 0⟩)) ?_ ?_ ?_ ?_ ?_ ?_ ?_ ?_ <;> boxe

omit [AddCommMonoid α] in
theorem cov30 (h0 : n0 ≤ 2147483647) (h1 : n1 ≤ 65535) (h2 : n2 ≤ 65535) : Covers (⟨⟨n0, n1, n2⟩, ⟨1, 1, 1⟩, k⟩ : Launch α) (box3 n0 n1 n2) fun q => ix3 0 q.1 q.2 := by
  refine covers_box _ _ _ _ _ (fun i => (⟨i.1, i.2.1, i.2.2⟩, ⟨0, 0, 0⟩)) ?_ ?_ ?_ ?_ ?_ ?_ ?_ ?_ <;> boxe

end

end Gpu

namespace Gpu

theorem owns_id {D : ι → Prop} {c : ι → Nat} (h : ∀ i j, D i → D j → c i = c j → i = j) : Owns (fun p => some (p : Int)) D c fun i => (c i : Int) := ⟨h, fun _ _ => rfl⟩

theorem reads_id {D : ι → Prop} {c : ι → Nat} {E : κ → Prop} {d : κ → Nat} (h : ∀ i j, D i → E j → c i ≠ d j) : Reads (fun p => some (p : Int)) D c E d fun j => (d j : Int) := ⟨h, fun _ _ => rfl⟩

end Gpu

section

variable [AddCommMonoid α] [Mul α]

/-- No index and no sum. -/
theorem C442_00 (x y r : Ptr) (m : Buf α) (a : α) (X Y : Unit → α) (hr : Owns m (fun _ : Unit => True) (fun _ => r.arr) fun _ => a)
    (hx : Reads m (fun _ : Unit => True) (fun _ => r.arr) (fun _ : Unit => True) (fun _ => x.arr) X) (hy : Reads m (fun _ : Unit => True) (fun _ => r.arr) (fun _ : Unit => True) (fun _ => y.arr) Y) :
    Ends (ein00 x y r) m fun m' => Upd m m' (fun _ : Unit => True) (fun _ => r.arr) fun _ => a + X () * Y () := by
  refine Ends.launch0 hr hx hy fun B T => ?_
  unfold ein00K
  exact ein0_one (hr.val () trivial) (hx.val () trivial) (hy.val () trivial) (.inl ⟨(), trivial, rfl⟩) (.inr ⟨(), trivial, rfl⟩)

example := C442_00 (α := Int) ⟨0, 0, 0, 0, 0, 0⟩ ⟨1, 0, 0, 0, 0, 0⟩ ⟨2, 0, 0, 0, 0, 0⟩ _ _ _ _ (owns_id (fun _ _ _ _ _ => rfl)) (reads_id (by rintro _ _ _ _; decide)) (reads_id (by rintro _ _ _ _; decide))

/-- One index and no sum. -/
theorem C442_10 (x y r : Ptr) (n0 : Nat) (m : Buf α) (a : Nat → α) (X Y : Nat → α) (h0 : n0 ≤ 2147483647) (hr : Owns m (box1 n0) r.at1 a)
    (hx : Reads m (box1 n0) r.at1 (box1 n0) x.at1 X) (hy : Reads m (box1 n0) r.at1 (box1 n0) y.at1 Y) :
    Ends (ein10 x y r n0) m fun m' => Upd m m' (box1 n0) r.at1 fun i => a i + X i * Y i := by
  refine Ends.launch1 (v := fun i => X i * Y i) h0 hr hx hy fun t B T hd => ?_
  unfold ein10K
  generalize ix1 t B T = i0 at hd ⊢
  dsimp only
  have er : r.arr + i0 * r.s0 = r.at1 i0 := by rw [Ptr.at1]; ring
  rw [er]
  have dj : box1 n0 i0 := hd
  have ex : x.arr + i0 * x.s0 = x.at1 i0 := by rw [Ptr.at1]; ring
  have ey : y.arr + i0 * y.s0 = y.at1 i0 := by rw [Ptr.at1]; ring
  rw [ex, ey]
  exact ein0_one (hr.val _ hd) (hx.val _ dj) (hy.val _ dj) (.inl ⟨_, dj, rfl⟩) (.inr ⟨_, dj, rfl⟩)

example := C442_10 (α := Int) ⟨0, 1, 0, 0, 0, 0⟩ ⟨3, 1, 0, 0, 0, 0⟩ ⟨6, 2, 0, 0, 0, 0⟩ 3 _ _ _ _ (by decide) (owns_id (by intro i0 j0 a0 b0 e; dsimp only [Ptr.at1, box1] at *; omega)) (reads_id (by rintro i0 j0 a0 b0; dsimp only [Ptr.at1, box1] at *; omega)) (reads_id (by rintro i0 j0 a0 b0; dsimp only [Ptr.at1, box1] at *; omega))

/-- Two indices and no sum. -/
theorem C442_20 (x y r : Ptr) (n0 n1 : Nat) (m : Buf α) (a : Nat × Nat → α) (X Y : Nat × Nat → α) (h0 : n0 ≤ 2147483647) (h1 : n1 ≤ 65535) (hr : Owns m (box2 n0 n1) r.at2 a)
    (hx : Reads m (box2 n0 n1) r.at2 (box2 n0 n1) x.at2 X) (hy : Reads m (box2 n0 n1) r.at2 (box2 n0 n1) y.at2 Y) :
    Ends (ein20 x y r n0 n1) m fun m' => Upd m m' (box2 n0 n1) r.at2 fun q => a q + X q * Y q := by
  refine Ends.launch2 (v := fun q => X q * Y q) h0 h1 hr hx hy fun t B T hd => ?_
  unfold ein20K
  generalize ix2 t B T = q at hd ⊢
  obtain ⟨i0, i1⟩ := q
  dsimp only
  have er : r.arr + (i0 * r.s0 + i1 * r.s1) = r.at2 (i0, i1) := by rw [Ptr.at2]; ring
  rw [er]
  have dj : box2 n0 n1 (i0, i1) := ⟨hd.1, hd.2⟩
  have ex : x.arr + (i0 * x.s0 + i1 * x.s1) = x.at2 (i0, i1) := by rw [Ptr.at2]; ring
  have ey : y.arr + (i0 * y.s0 + i1 * y.s1) = y.at2 (i0, i1) := by rw [Ptr.at2]; ring
  rw [ex, ey]
  exact ein0_one (hr.val _ hd) (hx.val _ dj) (hy.val _ dj) (.inl ⟨_, dj, rfl⟩) (.inr ⟨_, dj, rfl⟩)

example := C442_20 (α := Int) ⟨0, 1, 0, 0, 0, 0⟩ ⟨2, 0, 1, 0, 0, 0⟩ ⟨5, 3, 1, 0, 0, 0⟩ 2 3 _ _ _ _ (by decide) (by decide) (owns_id (by rintro ⟨i0, i1⟩ ⟨j0, j1⟩ ⟨a0, a1⟩ ⟨b0, b1⟩ e; dsimp only [Ptr.at2] at *; exact Prod.ext (by dsimp only; omega) (by dsimp only; omega))) (reads_id (by rintro ⟨i0, i1⟩ ⟨j0, j1⟩ ⟨a0, a1⟩ ⟨b0, b1⟩; dsimp only [Ptr.at2] at *; omega)) (reads_id (by rintro ⟨i0, i1⟩ ⟨j0, j1⟩ ⟨a0, a1⟩ ⟨b0, b1⟩; dsimp only [Ptr.at2] at *; omega))

/-- No index and one sum: the scalar product. -/
theorem C442_01 (x y r : Ptr) (J0 : Nat) (m : Buf α) (a : α) (X Y : Nat → α) (hr : Owns m (fun _ : Unit => True) (fun _ => r.arr) fun _ => a)
    (hx : Reads m (fun _ : Unit => True) (fun _ => r.arr) (box1 J0) x.at1 X) (hy : Reads m (fun _ : Unit => True) (fun _ => r.arr) (box1 J0) y.at1 Y) :
    Ends (ein01 x y r J0) m fun m' => Upd m m' (fun _ : Unit => True) (fun _ => r.arr) fun _ => a + ∑ j0 ∈ range J0, X j0 * Y j0 := by
  refine Ends.launch0 hr hx hy fun B T => ?_
  unfold ein01K
  refine ein1_one (u := fun j0 => X j0) (v := fun j0 => Y j0) (hr.val () trivial) fun j0 hj0 => ?_
  have dj : box1 J0 j0 := hj0
  have ex : x.arr + j0 * x.s0 = x.at1 j0 := by rw [Ptr.at1]; ring
  have ey : y.arr + j0 * y.s0 = y.at1 j0 := by rw [Ptr.at1]; ring
  try dsimp only
  rw [ex, ey]
  exact ⟨hx.val _ dj, hy.val _ dj, .inl ⟨_, dj, rfl⟩, .inr ⟨_, dj, rfl⟩⟩

example := C442_01 (α := Int) ⟨0, 1, 0, 0, 0, 0⟩ ⟨3, 1, 0, 0, 0, 0⟩ ⟨6, 0, 0, 0, 0, 0⟩ 3 _ _ _ _ (owns_id (fun _ _ _ _ _ => rfl)) (reads_id (by rintro _ j0 _ b0; dsimp only [Ptr.at1, box1] at *; omega)) (reads_id (by rintro _ j0 _ b0; dsimp only [Ptr.at1, box1] at *; omega))

/-- One index and one sum: a matrix times a vector, or rows times rows. -/
theorem C442_11 (x y r : Ptr) (n0 J0 : Nat) (m : Buf α) (a : Nat → α) (X Y : Nat × Nat → α) (h0 : n0 ≤ 2147483647) (hr : Owns m (box1 n0) r.at1 a)
    (hx : Reads m (box1 n0) r.at1 (box2 n0 J0) x.at2 X) (hy : Reads m (box1 n0) r.at1 (box2 n0 J0) y.at2 Y) :
    Ends (ein11 x y r n0 J0) m fun m' => Upd m m' (box1 n0) r.at1 fun i => a i + ∑ j0 ∈ range J0, X (i, j0) * Y (i, j0) := by
  refine Ends.launch1 (v := fun i => ∑ j0 ∈ range J0, X (i, j0) * Y (i, j0)) h0 hr hx hy fun t B T hd => ?_
  unfold ein11K
  generalize ix1 t B T = i0 at hd ⊢
  dsimp only
  have er : r.arr + i0 * r.s0 = r.at1 i0 := by rw [Ptr.at1]; ring
  rw [er]
  refine ein1_one (u := fun j0 => X (i0, j0)) (v := fun j0 => Y (i0, j0)) (hr.val _ hd) fun j0 hj0 => ?_
  have dj : box2 n0 J0 (i0, j0) := ⟨hd, hj0⟩
  have ex : x.arr + (i0 * x.s0 + j0 * x.s1) = x.at2 (i0, j0) := by rw [Ptr.at2]; ring
  have ey : y.arr + (i0 * y.s0 + j0 * y.s1) = y.at2 (i0, j0) := by rw [Ptr.at2]; ring
  try dsimp only
  rw [ex, ey]
  exact ⟨hx.val _ dj, hy.val _ dj, .inl ⟨_, dj, rfl⟩, .inr ⟨_, dj, rfl⟩⟩

example := C442_11 (α := Int) ⟨0, 3, 1, 0, 0, 0⟩ ⟨6, 0, 1, 0, 0, 0⟩ ⟨9, 1, 0, 0, 0, 0⟩ 2 3 _ _ _ _ (by decide) (owns_id (by intro i0 j0 a0 b0 e; dsimp only [Ptr.at1, box1] at *; omega)) (reads_id (by rintro i0 ⟨j0, j1⟩ a0 ⟨b0, b1⟩; dsimp only [Ptr.at1, Ptr.at2, box1] at *; omega)) (reads_id (by rintro i0 ⟨j0, j1⟩ a0 ⟨b0, b1⟩; dsimp only [Ptr.at1, Ptr.at2, box1] at *; omega))

/-- Two indices and one sum: the product of two matrices, or of two batches of vectors. -/
theorem C442_21 (x y r : Ptr) (n0 n1 J0 : Nat) (m : Buf α) (a : Nat × Nat → α) (X Y : Nat × Nat × Nat → α) (h0 : n0 ≤ 2147483647) (h1 : n1 ≤ 65535) (hr : Owns m (box2 n0 n1) r.at2 a)
    (hx : Reads m (box2 n0 n1) r.at2 (box3 n0 n1 J0) x.at3 X) (hy : Reads m (box2 n0 n1) r.at2 (box3 n0 n1 J0) y.at3 Y) :
    Ends (ein21 x y r n0 n1 J0) m fun m' => Upd m m' (box2 n0 n1) r.at2 fun q => a q + ∑ j0 ∈ range J0, X (q.1, q.2, j0) * Y (q.1, q.2, j0) := by
  refine Ends.launch2 (v := fun q => ∑ j0 ∈ range J0, X (q.1, q.2, j0) * Y (q.1, q.2, j0)) h0 h1 hr hx hy fun t B T hd => ?_
  unfold ein21K
  generalize ix2 t B T = q at hd ⊢
  obtain ⟨i0, i1⟩ := q
  dsimp only
  have er : r.arr + (i0 * r.s0 + i1 * r.s1) = r.at2 (i0, i1) := by rw [Ptr.at2]; ring
  rw [er]
  refine ein1_one (u := fun j0 => X (i0, i1, j0)) (v := fun j0 => Y (i0, i1, j0)) (hr.val _ hd) fun j0 hj0 => ?_
  have dj : box3 n0 n1 J0 (i0, i1, j0) := ⟨hd.1, hd.2, hj0⟩
  have ex : x.arr + (i0 * x.s0 + i1 * x.s1 + j0 * x.s2) = x.at3 (i0, i1, j0) := by rw [Ptr.at3]; ring
  have ey : y.arr + (i0 * y.s0 + i1 * y.s1 + j0 * y.s2) = y.at3 (i0, i1, j0) := by rw [Ptr.at3]; ring
  try dsimp only
  rw [ex, ey]
  exact ⟨hx.val _ dj, hy.val _ dj, .inl ⟨_, dj, rfl⟩, .inr ⟨_, dj, rfl⟩⟩

example := C442_21 (α := Int) ⟨0, 3, 0, 1, 0, 0⟩ ⟨6, 0, 1, 2, 0, 0⟩ ⟨12, 2, 1, 0, 0, 0⟩ 2 2 3 _ _ _ _ (by decide) (by decide) (owns_id (by rintro ⟨i0, i1⟩ ⟨j0, j1⟩ ⟨a0, a1⟩ ⟨b0, b1⟩ e; dsimp only [Ptr.at2] at *; exact Prod.ext (by dsimp only; omega) (by dsimp only; omega))) (reads_id (by rintro ⟨i0, i1⟩ ⟨j0, j1, j2⟩ ⟨a0, a1⟩ ⟨b0, b1, b2⟩; dsimp only [Ptr.at2, Ptr.at3] at *; omega)) (reads_id (by rintro ⟨i0, i1⟩ ⟨j0, j1, j2⟩ ⟨a0, a1⟩ ⟨b0, b1, b2⟩; dsimp only [Ptr.at2, Ptr.at3] at *; omega))

/-- One index and two sums. -/
theorem C442_12 (x y r : Ptr) (n0 J0 J1 : Nat) (m : Buf α) (a : Nat → α) (X Y : Nat × Nat × Nat → α) (h0 : n0 ≤ 2147483647) (hr : Owns m (box1 n0) r.at1 a)
    (hx : Reads m (box1 n0) r.at1 (box3 n0 J0 J1) x.at3 X) (hy : Reads m (box1 n0) r.at1 (box3 n0 J0 J1) y.at3 Y) :
    Ends (ein12 x y r n0 J0 J1) m fun m' => Upd m m' (box1 n0) r.at1 fun i => a i + ∑ j0 ∈ range J0, ∑ j1 ∈ range J1, X (i, j0, j1) * Y (i, j0, j1) := by
  refine Ends.launch1 (v := fun i => ∑ j0 ∈ range J0, ∑ j1 ∈ range J1, X (i, j0, j1) * Y (i, j0, j1)) h0 hr hx hy fun t B T hd => ?_
  unfold ein12K
  generalize ix1 t B T = i0 at hd ⊢
  dsimp only
  have er : r.arr + i0 * r.s0 = r.at1 i0 := by rw [Ptr.at1]; ring
  rw [er]
  refine ein2_one (u := fun j0 j1 => X (i0, j0, j1)) (v := fun j0 j1 => Y (i0, j0, j1)) (hr.val _ hd) fun j0 j1 hj0 hj1 => ?_
  have dj : box3 n0 J0 J1 (i0, j0, j1) := ⟨hd, hj0, hj1⟩
  have ex : x.arr + (i0 * x.s0 + j0 * x.s1 + j1 * x.s2) = x.at3 (i0, j0, j1) := by rw [Ptr.at3]; ring
  have ey : y.arr + (i0 * y.s0 + j0 * y.s1 + j1 * y.s2) = y.at3 (i0, j0, j1) := by rw [Ptr.at3]; ring
  try dsimp only
  rw [ex, ey]
  exact ⟨hx.val _ dj, hy.val _ dj, .inl ⟨_, dj, rfl⟩, .inr ⟨_, dj, rfl⟩⟩

example := C442_12 (α := Int) ⟨0, 6, 3, 1, 0, 0⟩ ⟨12, 0, 3, 1, 0, 0⟩ ⟨18, 1, 0, 0, 0, 0⟩ 2 2 3 _ _ _ _ (by decide) (owns_id (by intro i0 j0 a0 b0 e; dsimp only [Ptr.at1, box1] at *; omega)) (reads_id (by rintro i0 ⟨j0, j1, j2⟩ a0 ⟨b0, b1, b2⟩; dsimp only [Ptr.at1, Ptr.at3, box1] at *; omega)) (reads_id (by rintro i0 ⟨j0, j1, j2⟩ a0 ⟨b0, b1, b2⟩; dsimp only [Ptr.at1, Ptr.at3, box1] at *; omega))

/-- Two indices and two sums. -/
theorem C442_22 (x y r : Ptr) (n0 n1 J0 J1 : Nat) (m : Buf α) (a : Nat × Nat → α) (X Y : Nat × Nat × Nat × Nat → α) (h0 : n0 ≤ 2147483647) (h1 : n1 ≤ 65535) (hr : Owns m (box2 n0 n1) r.at2 a)
    (hx : Reads m (box2 n0 n1) r.at2 (box4 n0 n1 J0 J1) x.at4 X) (hy : Reads m (box2 n0 n1) r.at2 (box4 n0 n1 J0 J1) y.at4 Y) :
    Ends (ein22 x y r n0 n1 J0 J1) m fun m' => Upd m m' (box2 n0 n1) r.at2 fun q => a q + ∑ j0 ∈ range J0, ∑ j1 ∈ range J1, X (q.1, q.2, j0, j1) * Y (q.1, q.2, j0, j1) := by
  refine Ends.launch2 (v := fun q => ∑ j0 ∈ range J0, ∑ j1 ∈ range J1, X (q.1, q.2, j0, j1) * Y (q.1, q.2, j0, j1)) h0 h1 hr hx hy fun t B T hd => ?_
  unfold ein22K
  generalize ix2 t B T = q at hd ⊢
  obtain ⟨i0, i1⟩ := q
  dsimp only
  have er : r.arr + (i0 * r.s0 + i1 * r.s1) = r.at2 (i0, i1) := by rw [Ptr.at2]; ring
  rw [er]
  refine ein2_one (u := fun j0 j1 => X (i0, i1, j0, j1)) (v := fun j0 j1 => Y (i0, i1, j0, j1)) (hr.val _ hd) fun j0 j1 hj0 hj1 => ?_
  have dj : box4 n0 n1 J0 J1 (i0, i1, j0, j1) := ⟨hd.1, hd.2, hj0, hj1⟩
  have ex : x.arr + (i0 * x.s0 + i1 * x.s1 + j0 * x.s2 + j1 * x.s3) = x.at4 (i0, i1, j0, j1) := by rw [Ptr.at4]; ring
  have ey : y.arr + (i0 * y.s0 + i1 * y.s1 + j0 * y.s2 + j1 * y.s3) = y.at4 (i0, i1, j0, j1) := by rw [Ptr.at4]; ring
  try dsimp only
  rw [ex, ey]
  exact ⟨hx.val _ dj, hy.val _ dj, .inl ⟨_, dj, rfl⟩, .inr ⟨_, dj, rfl⟩⟩

example := C442_22 (α := Int) ⟨0, 4, 0, 2, 1, 0⟩ ⟨8, 0, 4, 2, 1, 0⟩ ⟨16, 2, 1, 0, 0, 0⟩ 2 2 2 2 _ _ _ _ (by decide) (by decide) (owns_id (by rintro ⟨i0, i1⟩ ⟨j0, j1⟩ ⟨a0, a1⟩ ⟨b0, b1⟩ e; dsimp only [Ptr.at2] at *; exact Prod.ext (by dsimp only; omega) (by dsimp only; omega))) (reads_id (by rintro ⟨i0, i1⟩ ⟨j0, j1, j2, j3⟩ ⟨a0, a1⟩ ⟨b0, b1, b2, b3⟩; dsimp only [Ptr.at2, Ptr.at4] at *; omega)) (reads_id (by rintro ⟨i0, i1⟩ ⟨j0, j1, j2, j3⟩ ⟨a0, a1⟩ ⟨b0, b1, b2, b3⟩; dsimp only [Ptr.at2, Ptr.at4] at *; omega))

theorem ein30_one {x y r : Ptr} {n0 n1 n2 : Nat} {m : Buf α} {a X Y : Nat × Nat × Nat → α} (hr : Owns m (box3 n0 n1 n2) r.at3 a) (hx : Reads m (box3 n0 n1 n2) r.at3 (box3 n0 n1 n2) x.at3 X)
    (hy : Reads m (box3 n0 n1 n2) r.at3 (box3 n0 n1 n2) y.at3 Y) (t : Nat) (B T : D3) (hd : box3 n0 n1 n2 (ix3 t B T)) :
    One m (ein30K t x y r B T) (r.at3 (ix3 t B T)) (a (ix3 t B T) + X (ix3 t B T) * Y (ix3 t B T)) (both (box3 n0 n1 n2) x.at3 (box3 n0 n1 n2) y.at3) := by
  unfold ein30K
  generalize ix3 t B T = q at hd ⊢
  obtain ⟨i0, i1, i2⟩ := q
  dsimp only
  have er : r.arr + (i0 * r.s0 + i1 * r.s1 + i2 * r.s2) = r.at3 (i0, i1, i2) := by rw [Ptr.at3]; ring
  have ex : x.arr + (i0 * x.s0 + i1 * x.s1 + i2 * x.s2) = x.at3 (i0, i1, i2) := by rw [Ptr.at3]; ring
  have ey : y.arr + (i0 * y.s0 + i1 * y.s1 + i2 * y.s2) = y.at3 (i0, i1, i2) := by rw [Ptr.at3]; ring
  rw [er, ex, ey]
  exact ein0_one (hr.val _ hd) (hx.val _ hd) (hy.val _ hd) (.inl ⟨_, hd, rfl⟩) (.inr ⟨_, hd, rfl⟩)

theorem ein31_one {x y r : Ptr} {n0 n1 n2 J0 : Nat} {m : Buf α} {a : Nat × Nat × Nat → α} {X Y : Nat × Nat × Nat × Nat → α} (hr : Owns m (box3 n0 n1 n2) r.at3 a)
    (hx : Reads m (box3 n0 n1 n2) r.at3 (box4 n0 n1 n2 J0) x.at4 X) (hy : Reads m (box3 n0 n1 n2) r.at3 (box4 n0 n1 n2 J0) y.at4 Y) (t : Nat) (B T : D3) (hd : box3 n0 n1 n2 (ix3 t B T)) :
    One m (ein31K t x y r J0 B T) (r.at3 (ix3 t B T)) (a (ix3 t B T) + ∑ j0 ∈ range J0, X ((ix3 t B T).1, (ix3 t B T).2.1, (ix3 t B T).2.2, j0) * Y ((ix3 t B T).1, (ix3 t B T).2.1, (ix3 t B T).2.2, j0))
      (both (box4 n0 n1 n2 J0) x.at4 (box4 n0 n1 n2 J0) y.at4) := by
  unfold ein31K
  generalize ix3 t B T = q at hd ⊢
  obtain ⟨i0, i1, i2⟩ := q
  dsimp only
  have er : r.arr + (i0 * r.s0 + i1 * r.s1 + i2 * r.s2) = r.at3 (i0, i1, i2) := by rw [Ptr.at3]; ring
  rw [er]
  refine ein1_one (u := fun j0 => X (i0, i1, i2, j0)) (v := fun j0 => Y (i0, i1, i2, j0)) (hr.val _ hd) fun j0 hj0 => ?_
  have dj : box4 n0 n1 n2 J0 (i0, i1, i2, j0) := ⟨hd.1, hd.2.1, hd.2.2, hj0⟩
  have ex : x.arr + (i0 * x.s0 + i1 * x.s1 + i2 * x.s2 + j0 * x.s3) = x.at4 (i0, i1, i2, j0) := by rw [Ptr.at4]; ring
  have ey : y.arr + (i0 * y.s0 + i1 * y.s1 + i2 * y.s2 + j0 * y.s3) = y.at4 (i0, i1, i2, j0) := by rw [Ptr.at4]; ring
  rw [ex, ey]
  exact ⟨hx.val _ dj, hy.val _ dj, .inl ⟨_, dj, rfl⟩, .inr ⟨_, dj, rfl⟩⟩

theorem ein32_one {x y r : Ptr} {n0 n1 n2 J0 J1 : Nat} {m : Buf α} {a : Nat × Nat × Nat → α} {X Y : Nat × Nat × Nat × Nat × Nat → α} (es : y.s4 = x.s4) (hr : Owns m (box3 n0 n1 n2) r.at3 a)
    (hx : Reads m (box3 n0 n1 n2) r.at3 (box5 n0 n1 n2 J0 J1) x.at5 X) (hy : Reads m (box3 n0 n1 n2) r.at3 (box5 n0 n1 n2 J0 J1) y.at5 Y) (t : Nat) (B T : D3) (hd : box3 n0 n1 n2 (ix3 t B T)) :
    One m (ein32K t x y r J0 J1 B T) (r.at3 (ix3 t B T))
      (a (ix3 t B T) + ∑ j0 ∈ range J0, ∑ j1 ∈ range J1, X ((ix3 t B T).1, (ix3 t B T).2.1, (ix3 t B T).2.2, j0, j1) * Y ((ix3 t B T).1, (ix3 t B T).2.1, (ix3 t B T).2.2, j0, j1))
      (both (box5 n0 n1 n2 J0 J1) x.at5 (box5 n0 n1 n2 J0 J1) y.at5) := by
  unfold ein32K
  generalize ix3 t B T = q at hd ⊢
  obtain ⟨i0, i1, i2⟩ := q
  dsimp only
  have er : r.arr + (i0 * r.s0 + i1 * r.s1 + i2 * r.s2) = r.at3 (i0, i1, i2) := by rw [Ptr.at3]; ring
  rw [er]
  refine ein2_one (u := fun j0 j1 => X (i0, i1, i2, j0, j1)) (v := fun j0 j1 => Y (i0, i1, i2, j0, j1)) (hr.val _ hd) fun j0 j1 hj0 hj1 => ?_
  have dj : box5 n0 n1 n2 J0 J1 (i0, i1, i2, j0, j1) := ⟨hd.1, hd.2.1, hd.2.2, hj0, hj1⟩
  have ex : x.arr + (i0 * x.s0 + i1 * x.s1 + i2 * x.s2 + j0 * x.s3 + j1 * x.s4) = x.at5 (i0, i1, i2, j0, j1) := by rw [Ptr.at5]; ring
  have ey : y.arr + (i0 * y.s0 + i1 * y.s1 + i2 * y.s2 + j0 * y.s3 + j1 * x.s4) = y.at5 (i0, i1, i2, j0, j1) := by rw [Ptr.at5, es]; ring
  rw [ex, ey]
  exact ⟨hx.val _ dj, hy.val _ dj, .inl ⟨_, dj, rfl⟩, .inr ⟨_, dj, rfl⟩⟩

/-- With three indices and one sum, when small tensors have at most 64 entries along the last of them. -/
theorem C443_31_partial (x y r : Ptr) (n0 n1 n2 J0 : Nat) (m : Buf α) (a : Nat × Nat × Nat → α) (X Y : Nat × Nat × Nat × Nat → α) (h0 : n0 ≤ 2147483647) (h1 : n1 ≤ 65535) (h2 : n2 ≤ 65535)
    (hz : n0 * n1 * n2 ≤ 1024 → n2 ≤ 64) (hr : Owns m (box3 n0 n1 n2) r.at3 a) (hx : Reads m (box3 n0 n1 n2) r.at3 (box4 n0 n1 n2 J0) x.at4 X)
    (hy : Reads m (box3 n0 n1 n2) r.at3 (box4 n0 n1 n2 J0) y.at4 Y) :
    Ends (ein31 x y r n0 n1 n2 J0) m fun m' => Upd m m' (box3 n0 n1 n2) r.at3 fun q => a q + ∑ j0 ∈ range J0, X (q.1, q.2.1, q.2.2, j0) * Y (q.1, q.2.1, q.2.2, j0) := by
  rw [ein31]
  split
  · have hc := cov33 (k := ein31K (α := α) 3 x y r J0) ‹_› (hz ‹_›)
    exact Ends.sums (v := fun q => ∑ j0 ∈ range J0, X (q.1, q.2.1, q.2.2, j0) * Y (q.1, q.2.1, q.2.2, j0)) hc hr hx hy fun q hq => ein31_one hr hx hy 3 _ _ (hc.mem q hq)
  · split
    · have hc := cov32 (k := ein31K (α := α) 2 x y r J0) h0 ‹_›
      exact Ends.sums (v := fun q => ∑ j0 ∈ range J0, X (q.1, q.2.1, q.2.2, j0) * Y (q.1, q.2.1, q.2.2, j0)) hc hr hx hy fun q hq => ein31_one hr hx hy 2 _ _ (hc.mem q hq)
    · split
      · have hc := cov31 (k := ein31K (α := α) 1 x y r J0) h0 h1 ‹_›
        exact Ends.sums (v := fun q => ∑ j0 ∈ range J0, X (q.1, q.2.1, q.2.2, j0) * Y (q.1, q.2.1, q.2.2, j0)) hc hr hx hy fun q hq => ein31_one hr hx hy 1 _ _ (hc.mem q hq)
      · have hc := cov30 (k := ein31K (α := α) 0 x y r J0) h0 h1 h2
        exact Ends.sums (v := fun q => ∑ j0 ∈ range J0, X (q.1, q.2.1, q.2.2, j0) * Y (q.1, q.2.1, q.2.2, j0)) hc hr hx hy fun q hq => ein31_one hr hx hy 0 _ _ (hc.mem q hq)

example := C443_31_partial (α := Int) ⟨0, 4, 2, 0, 1, 0⟩ ⟨8, 0, 0, 1, 2, 0⟩ ⟨12, 4, 2, 1, 0, 0⟩ 2 2 2 2 _ _ _ _ (by decide) (by decide) (by decide) (by decide) (owns_id (by rintro ⟨i0, i1, i2⟩ ⟨j0, j1, j2⟩ ⟨a0, a1, a2⟩ ⟨b0, b1, b2⟩ e; dsimp only [Ptr.at3] at *; exact Prod.ext (by dsimp only; omega) (Prod.ext (by dsimp only; omega) (by dsimp only; omega)))) (reads_id (by rintro ⟨i0, i1, i2⟩ ⟨j0, j1, j2, j3⟩ ⟨a0, a1, a2⟩ ⟨b0, b1, b2, b3⟩; dsimp only [Ptr.at3, Ptr.at4] at *; omega)) (reads_id (by rintro ⟨i0, i1, i2⟩ ⟨j0, j1, j2, j3⟩ ⟨a0, a1, a2⟩ ⟨b0, b1, b2, b3⟩; dsimp only [Ptr.at3, Ptr.at4] at *; omega))

omit [AddCommMonoid α] [Mul α] in
/-- A launch that the device refuses changes nothing. -/
theorem ends_refused [AddCommMonoid α] [Mul α] (x y r : Ptr) (n0 n1 n2 J0 : Nat) (m : Buf α) (h : n0 * n1 * n2 ≤ 1024) (hz : 64 < n2) : Ends (ein31 x y r n0 n1 n2 J0) m fun m' => m' = m := by
  rw [ein31, if_pos h]
  refine Ends.skip (Bool.eq_false_iff.2 fun hv => ?_) (Ends.nil rfl)
  have := (valid_iff.1 hv).2.2.2.2.2.2.2.2.2.2
  dsimp only at this
  omega

/-- A product of a `1 × 1 × 65` tensor with itself does nothing. -/
theorem C443_31_fails : ∃ (x y r : Ptr) (n0 n1 n2 J0 : Nat) (m : Buf Int) (a : Nat × Nat × Nat → Int) (X Y : Nat × Nat × Nat × Nat → Int), n0 * n1 * n2 ≤ 1024 ∧
    Owns m (box3 n0 n1 n2) r.at3 a ∧ Reads m (box3 n0 n1 n2) r.at3 (box4 n0 n1 n2 J0) x.at4 X ∧ Reads m (box3 n0 n1 n2) r.at3 (box4 n0 n1 n2 J0) y.at4 Y ∧
    ¬ Ends (ein31 x y r n0 n1 n2 J0) m fun m' => Upd m m' (box3 n0 n1 n2) r.at3 fun q => a q + ∑ j0 ∈ range J0, X (q.1, q.2.1, q.2.2, j0) * Y (q.1, q.2.1, q.2.2, j0) := by
  refine ⟨⟨65, 65, 65, 1, 1, 0⟩, ⟨65, 65, 65, 1, 1, 0⟩, ⟨0, 65, 65, 1, 0, 0⟩, 1, 1, 65, 1, fun p => if p < 65 then some 0 else some 1, fun _ => 0, fun _ => 1, fun _ => 1, by decide, ?_, ?_, ?_, ?_⟩
  · refine ⟨?_, ?_⟩
    · rintro ⟨i0, i1, i2⟩ ⟨j0, j1, j2⟩ ⟨a1, a2, a3⟩ ⟨b1, b2, b3⟩ e
      dsimp only [Ptr.at3] at *
      have : i0 = 0 ∧ j0 = 0 ∧ i1 = 0 ∧ j1 = 0 ∧ i2 = j2 := by omega
      obtain ⟨rfl, rfl, rfl, rfl, rfl⟩ := this
      rfl
    · rintro ⟨i0, i1, i2⟩ ⟨a1, a2, a3⟩
      exact if_pos (by dsimp only [Ptr.at3] at *; omega)
  · refine ⟨?_, ?_⟩
    · rintro ⟨i0, i1, i2⟩ ⟨j0, j1, j2, j3⟩ ⟨a1, a2, a3⟩ ⟨b1, b2, b3⟩
      dsimp only [Ptr.at3, Ptr.at4] at *
      omega
    · rintro ⟨i0, i1, i2, i3⟩ ⟨a1, a2, a3⟩
      exact if_neg (by dsimp only [Ptr.at4] at *; omega)
  · refine ⟨?_, ?_⟩
    · rintro ⟨i0, i1, i2⟩ ⟨j0, j1, j2, j3⟩ ⟨a1, a2, a3⟩ ⟨b1, b2, b3⟩
      dsimp only [Ptr.at3, Ptr.at4] at *
      omega
    · rintro ⟨i0, i1, i2, i3⟩ ⟨a1, a2, a3⟩
      exact if_neg (by dsimp only [Ptr.at4] at *; omega)
  · intro h
    obtain ⟨⟨m', ho⟩, hu⟩ := h
    obtain ⟨m1, e1, u1⟩ := hu _ ho
    obtain ⟨m2, e2, u2⟩ := (ends_refused _ _ _ _ _ _ _ _ (by decide) (by decide)).2 _ ho
    cases e1
    cases e2
    have := u1.1 (0, 0, 0) ⟨by decide, by decide, by decide⟩
    subst u2
    revert this
    decide

/-- With three indices and no sum, tensors with more than 1024 entries. -/
theorem C444_large_partial (x y r : Ptr) (n0 n1 n2 : Nat) (m : Buf α) (a X Y : Nat × Nat × Nat → α) (h0 : n0 ≤ 2147483647) (h1 : n1 ≤ 65535) (h2 : n2 ≤ 65535) (hl : 1024 < n0 * n1 * n2)
    (hr : Owns m (box3 n0 n1 n2) r.at3 a) (hx : Reads m (box3 n0 n1 n2) r.at3 (box3 n0 n1 n2) x.at3 X) (hy : Reads m (box3 n0 n1 n2) r.at3 (box3 n0 n1 n2) y.at3 Y) :
    Ends (ein30 x y r n0 n1 n2) m fun m' => Upd m m' (box3 n0 n1 n2) r.at3 fun q => a q + X q * Y q := by
  rw [ein30, if_neg (by omega)]
  split
  · have hc := cov32 (k := ein30K (α := α) 2 x y r) h0 ‹_›
    exact Ends.sums (v := fun q => X q * Y q) hc hr hx hy fun q hq => ein30_one hr hx hy 2 _ _ (hc.mem q hq)
  · split
    · have hc := cov31 (k := ein30K (α := α) 1 x y r) h0 h1 ‹_›
      exact Ends.sums (v := fun q => X q * Y q) hc hr hx hy fun q hq => ein30_one hr hx hy 1 _ _ (hc.mem q hq)
    · have hc := cov30 (k := ein30K (α := α) 0 x y r) h0 h1 h2
      exact Ends.sums (v := fun q => X q * Y q) hc hr hx hy fun q hq => ein30_one hr hx hy 0 _ _ (hc.mem q hq)

example := C444_large_partial (α := Int) ⟨0, 0, 0, 1, 0, 0⟩ ⟨1025, 0, 0, 1, 0, 0⟩ ⟨2050, 1025, 1025, 1, 0, 0⟩ 1 1 1025 _ _ _ _ (by decide) (by decide) (by decide) (by decide) (owns_id (by rintro ⟨i0, i1, i2⟩ ⟨j0, j1, j2⟩ ⟨a0, a1, a2⟩ ⟨b0, b1, b2⟩ e; dsimp only [Ptr.at3] at *; exact Prod.ext (by dsimp only; omega) (Prod.ext (by dsimp only; omega) (by dsimp only; omega)))) (reads_id (by rintro ⟨i0, i1, i2⟩ ⟨j0, j1, j2⟩ ⟨a0, a1, a2⟩ ⟨b0, b1, b2⟩; dsimp only [Ptr.at3] at *; omega)) (reads_id (by rintro ⟨i0, i1, i2⟩ ⟨j0, j1, j2⟩ ⟨a0, a1, a2⟩ ⟨b0, b1, b2⟩; dsimp only [Ptr.at3] at *; omega))

/-- Of the small tensors, those with one entry along the last two axes. -/
theorem C444_column_partial (x y r : Ptr) (n0 : Nat) (m : Buf α) (a X Y : Nat × Nat × Nat → α) (h0 : n0 ≤ 1024) (hr : Owns m (box3 n0 1 1) r.at3 a) (hx : Reads m (box3 n0 1 1) r.at3 (box3 n0 1 1) x.at3 X)
    (hy : Reads m (box3 n0 1 1) r.at3 (box3 n0 1 1) y.at3 Y) : Ends (ein30 x y r n0 1 1) m fun m' => Upd m m' (box3 n0 1 1) r.at3 fun q => a q + X q * Y q := by
  rw [ein30, if_pos (by omega), Nat.mul_one]
  have hc : Covers (⟨⟨1, 1, 1⟩, ⟨n0, 1, 1⟩, ein30K 3 x y r⟩ : Launch α) (box3 n0 1 1) fun q => ix3 3 q.1 q.2 := by
    have := cov33 (k := ein30K (α := α) 3 x y r) (n0 := n0) (n1 := 1) (n2 := 1) (by omega) (by omega)
    exact this
  exact Ends.sums (v := fun q => X q * Y q) hc hr hx hy fun q hq => ein30_one hr hx hy 3 _ _ (hc.mem q hq)

example := C444_column_partial (α := Int) ⟨0, 1, 0, 0, 0, 0⟩ ⟨3, 1, 0, 0, 0, 0⟩ ⟨6, 1, 1, 1, 0, 0⟩ 3 _ _ _ _ (by decide) (owns_id (by rintro ⟨i0, i1, i2⟩ ⟨j0, j1, j2⟩ ⟨a0, a1, a2⟩ ⟨b0, b1, b2⟩ e; dsimp only [Ptr.at3] at *; exact Prod.ext (by dsimp only; omega) (Prod.ext (by dsimp only; omega) (by dsimp only; omega)))) (reads_id (by rintro ⟨i0, i1, i2⟩ ⟨j0, j1, j2⟩ ⟨a0, a1, a2⟩ ⟨b0, b1, b2⟩; dsimp only [Ptr.at3] at *; omega)) (reads_id (by rintro ⟨i0, i1, i2⟩ ⟨j0, j1, j2⟩ ⟨a0, a1, a2⟩ ⟨b0, b1, b2⟩; dsimp only [Ptr.at3] at *; omega))

/-- A product of `1 × 2 × 1` tensors leaves the second entry as it was and adds to a cell behind the result. -/
theorem C444_fails : ∃ (x y r : Ptr) (n0 n1 n2 : Nat) (m : Buf Int) (a X Y : Nat × Nat × Nat → Int), n2 ≤ 64 ∧ Owns m (box3 n0 n1 n2) r.at3 a ∧
    Reads m (box3 n0 n1 n2) r.at3 (box3 n0 n1 n2) x.at3 X ∧ Reads m (box3 n0 n1 n2) r.at3 (box3 n0 n1 n2) y.at3 Y ∧
    ¬ Ends (ein30 x y r n0 n1 n2) m fun m' => Upd m m' (box3 n0 n1 n2) r.at3 fun q => a q + X q * Y q := by
  refine ⟨⟨3, 2, 1, 1, 0, 0⟩, ⟨3, 2, 1, 1, 0, 0⟩, ⟨0, 2, 1, 1, 0, 0⟩, 1, 2, 1, fun p => if p < 3 then some 0 else some 1, fun _ => 0, fun _ => 1, fun _ => 1, by decide, ?_, ?_, ?_, ?_⟩
  · refine ⟨?_, ?_⟩
    · rintro ⟨i0, i1, i2⟩ ⟨j0, j1, j2⟩ ⟨a1, a2, a3⟩ ⟨b1, b2, b3⟩ e
      dsimp only [Ptr.at3] at *
      have : i0 = 0 ∧ j0 = 0 ∧ i1 = j1 ∧ i2 = 0 ∧ j2 = 0 := by omega
      obtain ⟨rfl, rfl, rfl, rfl, rfl⟩ := this
      rfl
    · rintro ⟨i0, i1, i2⟩ ⟨a1, a2, a3⟩
      exact if_pos (by dsimp only [Ptr.at3] at *; omega)
  · refine ⟨?_, ?_⟩
    · rintro ⟨i0, i1, i2⟩ ⟨j0, j1, j2⟩ ⟨a1, a2, a3⟩ ⟨b1, b2, b3⟩
      dsimp only [Ptr.at3] at *
      omega
    · rintro ⟨i0, i1, i2⟩ ⟨a1, a2, a3⟩
      exact if_neg (by dsimp only [Ptr.at3] at *; omega)
  · refine ⟨?_, ?_⟩
    · rintro ⟨i0, i1, i2⟩ ⟨j0, j1, j2⟩ ⟨a1, a2, a3⟩ ⟨b1, b2, b3⟩
      dsimp only [Ptr.at3] at *
      omega
    · rintro ⟨i0, i1, i2⟩ ⟨a1, a2, a3⟩
      exact if_neg (by dsimp only [Ptr.at3] at *; omega)
  · intro h
    obtain ⟨⟨m', ho⟩, hu⟩ := h
    obtain ⟨m1, e1, u1⟩ := hu _ ho
    cases e1
    have h1 := u1.1 (0, 1, 0) ⟨by decide, by decide, by decide⟩
    have h2 := out_frame (fun p => p = 0 ∨ p = 2) _ ?_ _ _ ho 1 (by decide)
    · rw [show (⟨0, 2, 1, 1, 0, 0⟩ : Ptr).at3 (0, 1, 0) = 1 from rfl, h2] at h1
      revert h1
      decide
    · intro l hl q hq
      rw [ein30, if_pos (by decide), List.mem_singleton] at hl
      subst hl
      obtain ⟨⟨bx, by', bz⟩, ⟨tx, ty, tz⟩⟩ := q
      obtain ⟨_, c1, c2, c3⟩ := mem_ids'.1 hq
      dsimp only at c1 c2 c3
      refine (Within.rd (.inl trivial)).bind fun _ => (Within.rd (.inl trivial)).bind fun _ => Within.inc ?_
      dsimp only [ix3_3]
      omega

/-- With two sums and no index, when the second strides of the factors agree. -/
theorem C445_02_partial (x y r : Ptr) (J0 J1 : Nat) (m : Buf α) (a : α) (X Y : Nat × Nat → α) (es : y.s1 = x.s1) (hr : Owns m (fun _ : Unit => True) (fun _ => r.arr) fun _ => a)
    (hx : Reads m (fun _ : Unit => True) (fun _ => r.arr) (box2 J0 J1) x.at2 X) (hy : Reads m (fun _ : Unit => True) (fun _ => r.arr) (box2 J0 J1) y.at2 Y) :
    Ends (ein02 x y r J0 J1) m fun m' => Upd m m' (fun _ : Unit => True) (fun _ => r.arr) fun _ => a + ∑ j0 ∈ range J0, ∑ j1 ∈ range J1, X (j0, j1) * Y (j0, j1) := by
  refine Ends.launch0 hr hx hy fun B T => ?_
  unfold ein02K
  refine ein2_one (u := fun j0 j1 => X (j0, j1)) (v := fun j0 j1 => Y (j0, j1)) (hr.val () trivial) fun j0 j1 hj0 hj1 => ?_
  have dj : box2 J0 J1 (j0, j1) := ⟨hj0, hj1⟩
  have ex : x.arr + (j0 * x.s0 + j1 * x.s1) = x.at2 (j0, j1) := by rw [Ptr.at2]; ring
  have ey : y.arr + (j0 * y.s0 + j1 * x.s1) = y.at2 (j0, j1) := by rw [Ptr.at2, es]; ring
  dsimp only
  rw [ex, ey]
  exact ⟨hx.val _ dj, hy.val _ dj, .inl ⟨_, dj, rfl⟩, .inr ⟨_, dj, rfl⟩⟩

example := C445_02_partial (α := Int) ⟨0, 2, 1, 0, 0, 0⟩ ⟨4, 2, 1, 0, 0, 0⟩ ⟨8, 0, 0, 0, 0, 0⟩ 2 2 _ _ _ _ rfl (owns_id (fun _ _ _ _ _ => rfl)) (reads_id (by rintro _ ⟨j0, j1⟩ _ ⟨b0, b1⟩; dsimp only [Ptr.at2] at *; omega)) (reads_id (by rintro _ ⟨j0, j1⟩ _ ⟨b0, b1⟩; dsimp only [Ptr.at2] at *; omega))

/-- `(1, 1)` times every second entry of `(1, 0, 1)` gives one instead of two. -/
theorem C445_02_fails : ∃ (x y r : Ptr) (J0 J1 : Nat) (m : Buf Int) (a : Int) (X Y : Nat × Nat → Int), Owns m (fun _ : Unit => True) (fun _ => r.arr) (fun _ => a) ∧
    Reads m (fun _ : Unit => True) (fun _ => r.arr) (box2 J0 J1) x.at2 X ∧ Reads m (fun _ : Unit => True) (fun _ => r.arr) (box2 J0 J1) y.at2 Y ∧
    ¬ Ends (ein02 x y r J0 J1) m fun m' => Upd m m' (fun _ : Unit => True) (fun _ => r.arr) fun _ => a + ∑ j0 ∈ range J0, ∑ j1 ∈ range J1, X (j0, j1) * Y (j0, j1) := by
  have hX : ∀ (u : Ptr) (D : Nat → Option Int) (X : Nat × Nat → Int), (∀ j, j < 2 → u.at2 (0, j) ≠ 5 ∧ D (u.at2 (0, j)) = some (X (0, j))) →
      Reads D (fun _ : Unit => True) (fun _ => 5) (box2 1 2) u.at2 X := fun u D X h => by
    refine ⟨?_, ?_⟩
    · rintro _ ⟨i, j⟩ _ ⟨d1, d2⟩
      dsimp only at d1 d2
      obtain rfl : i = 0 := by omega
      exact fun e => (h j d2).1 e.symm
    · rintro ⟨i, j⟩ ⟨d1, d2⟩
      dsimp only at d1 d2
      obtain rfl : i = 0 := by omega
      exact (h j d2).2
  let M : Buf Int := fun p => if p = 3 ∨ p = 5 then some 0 else some 1
  have ho : Owns M (fun _ : Unit => True) (fun _ => 5) (fun _ => 0) := ⟨fun _ _ _ _ _ => rfl, fun _ _ => rfl⟩
  refine ⟨⟨0, 0, 1, 0, 0, 0⟩, ⟨2, 0, 2, 0, 0, 0⟩, ⟨5, 0, 0, 0, 0, 0⟩, 1, 2, M, 0, fun _ => 1, fun _ => 1, ho, hX _ _ _ (by decide), hX _ _ _ (by decide), fun h => ?_⟩
  obtain ⟨⟨m', hm⟩, hu⟩ := h
  obtain ⟨m1, e1, u1⟩ := hu _ hm
  have hc := C445_02_partial (⟨0, 0, 1, 0, 0, 0⟩ : Ptr) ⟨2, 0, 1, 0, 0, 0⟩ ⟨5, 0, 0, 0, 0, 0⟩ 1 2 M 0 (fun _ => 1) (fun q => if q.2 = 0 then 1 else 0) rfl ho (hX _ _ _ (by decide)) (hX _ _ _ (by decide))
  obtain ⟨m2, e2, u2⟩ := hc.2 _ hm
  cases e1
  cases e2
  have h1 := u1.1 () trivial
  rw [u2.1 () trivial] at h1
  revert h1
  decide

omit [AddCommMonoid α] [Mul α] in
theorem Gpu.Upd.owns {m m' : Buf α} {D : ι → Prop} {c : ι → Nat} {a v : ι → α} (h : Upd m m' D c v) (hr : Owns m D c a) : Owns m' D c v := ⟨hr.inj, h.1⟩

omit [AddCommMonoid α] [Mul α] in
theorem Gpu.Upd.reads {m m' : Buf α} {D : ι → Prop} {c : ι → Nat} {v : ι → α} {E : κ → Prop} {d : κ → Nat} {b : κ → α} (h : Upd m m' D c v) (hx : Reads m D c E d b) : Reads m' D c E d b :=
  ⟨hx.apart, fun j hj => by rw [h.2 _ fun i hi e => hx.apart i j hi hj e.symm, hx.val j hj]⟩

omit [AddCommMonoid α] [Mul α] in
theorem Gpu.Upd.then {m m1 m2 : Buf α} {D : ι → Prop} {c : ι → Nat} {v w : ι → α} (h1 : Upd m m1 D c v) (h2 : Upd m1 m2 D c w) : Upd m m2 D c w :=
  ⟨h2.1, fun p hp => by rw [h2.2 p hp, h1.2 p hp]⟩

theorem ein32_again {x y r : Ptr} {n0 n1 n2 J0 J1 t : Nat} {m m1 : Buf α} {a a1 v : Nat × Nat × Nat → α} {X Y : Nat × Nat × Nat × Nat × Nat → α} {B T : D3} (es : y.s4 = x.s4)
    (hr : Owns m (box3 n0 n1 n2) r.at3 a) (hx : Reads m (box3 n0 n1 n2) r.at3 (box5 n0 n1 n2 J0 J1) x.at5 X) (hy : Reads m (box3 n0 n1 n2) r.at3 (box5 n0 n1 n2 J0 J1) y.at5 Y)
    (hv : v = fun q => ∑ j0 ∈ range J0, ∑ j1 ∈ range J1, X (q.1, q.2.1, q.2.2, j0, j1) * Y (q.1, q.2.1, q.2.2, j0, j1))
    (hc : Covers (⟨B, T, ein32K t x y r J0 J1⟩ : Launch α) (box3 n0 n1 n2) fun q => ix3 t q.1 q.2) (u : Upd m m1 (box3 n0 n1 n2) r.at3 a1) :
    Ends [⟨B, T, ein32K t x y r J0 J1⟩] m1 fun m2 => Upd m m2 (box3 n0 n1 n2) r.at3 fun q => a1 q + v q := by
  subst hv
  exact (Ends.sums (v := fun q => ∑ j0 ∈ range J0, ∑ j1 ∈ range J1, X (q.1, q.2.1, q.2.2, j0, j1) * Y (q.1, q.2.1, q.2.2, j0, j1)) hc (u.owns hr) (u.reads hx) (u.reads hy)
    fun q hq => ein32_one es (u.owns hr) (u.reads hx) (u.reads hy) t _ _ (hc.mem q hq)).imp fun m2 u2 => u.then u2

/-- With three indices and two sums, tensors with more than 1024 entries along the last index and the same last strides. -/
theorem C446_large_partial (x y r : Ptr) (n0 n1 n2 J0 J1 : Nat) (m : Buf α) (a : Nat × Nat × Nat → α) (X Y : Nat × Nat × Nat × Nat × Nat → α) (h0 : n0 ≤ 2147483647) (h1 : n1 ≤ 65535)
    (h2 : n2 ≤ 65535) (p0 : 0 < n0) (p1 : 0 < n1) (hl : 1024 < n2) (es : y.s4 = x.s4) (hr : Owns m (box3 n0 n1 n2) r.at3 a) (hx : Reads m (box3 n0 n1 n2) r.at3 (box5 n0 n1 n2 J0 J1) x.at5 X)
    (hy : Reads m (box3 n0 n1 n2) r.at3 (box5 n0 n1 n2 J0 J1) y.at5 Y) : Ends (ein32 x y r n0 n1 n2 J0 J1) m fun m' => Upd m m' (box3 n0 n1 n2) r.at3 fun q =>
      a q + ∑ j0 ∈ range J0, ∑ j1 ∈ range J1, X (q.1, q.2.1, q.2.2, j0, j1) * Y (q.1, q.2.1, q.2.2, j0, j1) := by
  have hc := cov30 (k := ein32K (α := α) 0 x y r J0 J1) h0 h1 h2
  have e1 := Nat.le_mul_of_pos_left n2 p1
  have e0 := Nat.le_mul_of_pos_left n2 (Nat.mul_pos p0 p1)
  have el : ein32 (α := α) x y r n0 n1 n2 J0 J1 = [⟨⟨n0, n1, n2⟩, ⟨1, 1, 1⟩, ein32K 0 x y r J0 J1⟩] := by
    rw [ein32, if_neg (by omega), if_neg (by omega), if_neg (by omega)]
    rfl
  rw [el]
  exact ein32_again es hr hx hy rfl hc ⟨hr.val, fun _ _ => rfl⟩

example := C446_large_partial (α := Int) ⟨0, 0, 0, 0, 2, 1⟩ ⟨4, 0, 0, 4, 2, 1⟩ ⟨5000, 1025, 1025, 1, 0, 0⟩ 1 1 1025 2 2 _ _ _ _ (by decide) (by decide) (by decide) (by decide) (by decide) (by decide) rfl (owns_id (by rintro ⟨i0, i1, i2⟩ ⟨j0, j1, j2⟩ ⟨a0, a1, a2⟩ ⟨b0, b1, b2⟩ e; dsimp only [Ptr.at3] at *; exact Prod.ext (by dsimp only; omega) (Prod.ext (by dsimp only; omega) (by dsimp only; omega)))) (reads_id (by rintro ⟨i0, i1, i2⟩ ⟨j0, j1, j2, j3, j4⟩ ⟨a0, a1, a2⟩ ⟨b0, b1, b2, b3, b4⟩; dsimp only [Ptr.at3, Ptr.at5] at *; omega)) (reads_id (by rintro ⟨i0, i1, i2⟩ ⟨j0, j1, j2, j3, j4⟩ ⟨a0, a1, a2⟩ ⟨b0, b1, b2, b3, b4⟩; dsimp only [Ptr.at3, Ptr.at5] at *; omega))

/-- With at most 1024 entries the sum is added four times. -/
theorem C446_fourfold (x y r : Ptr) (n0 n1 n2 J0 J1 : Nat) (m : Buf α) (a v : Nat × Nat × Nat → α) (X Y : Nat × Nat × Nat × Nat × Nat → α) (h0 : n0 * n1 * n2 ≤ 1024) (p0 : 0 < n0)
    (q0 : n0 ≤ 1024) (q1 : n1 ≤ 1024) (h2 : n2 ≤ 64) (es : y.s4 = x.s4) (hr : Owns m (box3 n0 n1 n2) r.at3 a) (hx : Reads m (box3 n0 n1 n2) r.at3 (box5 n0 n1 n2 J0 J1) x.at5 X)
    (hy : Reads m (box3 n0 n1 n2) r.at3 (box5 n0 n1 n2 J0 J1) y.at5 Y)
    (hv : v = fun q => ∑ j0 ∈ range J0, ∑ j1 ∈ range J1, X (q.1, q.2.1, q.2.2, j0, j1) * Y (q.1, q.2.1, q.2.2, j0, j1)) :
    Ends (ein32 x y r n0 n1 n2 J0 J1) m fun m' => Upd m m' (box3 n0 n1 n2) r.at3 fun q => a q + v q + v q + v q + v q := by
  have e1 : n1 * n2 ≤ 1024 := le_trans (by rw [Nat.mul_assoc]; exact Nat.le_mul_of_pos_left _ p0) h0
  rw [ein32, if_pos h0, if_pos e1, if_pos (by omega)]
  simp only [List.cons_append, List.nil_append]
  refine (ein32_again es hr hx hy hv (cov33 h0 h2) ⟨hr.val, fun _ _ => rfl⟩).seq fun m1 u1 => ?_
  refine (ein32_again es hr hx hy hv (cov32 (by omega) e1) u1).seq fun m2 u2 => ?_
  refine (ein32_again es hr hx hy hv (cov31 (by omega) (by omega) (by omega)) u2).seq fun m3 u3 => ?_
  exact ein32_again es hr hx hy hv (cov30 (by omega) (by omega) (by omega)) u3

example := C446_fourfold (α := Int) ⟨0, 0, 0, 0, 2, 1⟩ ⟨4, 0, 0, 4, 2, 1⟩ ⟨20, 4, 2, 1, 0, 0⟩ 1 1 2 2 2 _ _ _ _ _ (by decide) (by decide) (by decide) (by decide) (by decide) rfl (owns_id (by rintro ⟨i0, i1, i2⟩ ⟨j0, j1, j2⟩ ⟨a0, a1, a2⟩ ⟨b0, b1, b2⟩ e; dsimp only [Ptr.at3] at *; exact Prod.ext (by dsimp only; omega) (Prod.ext (by dsimp only; omega) (by dsimp only; omega)))) (reads_id (by rintro ⟨i0, i1, i2⟩ ⟨j0, j1, j2, j3, j4⟩ ⟨a0, a1, a2⟩ ⟨b0, b1, b2, b3, b4⟩; dsimp only [Ptr.at3, Ptr.at5] at *; omega)) (reads_id (by rintro ⟨i0, i1, i2⟩ ⟨j0, j1, j2, j3, j4⟩ ⟨a0, a1, a2⟩ ⟨b0, b1, b2, b3, b4⟩; dsimp only [Ptr.at3, Ptr.at5] at *; omega)) rfl

/-- One times one is four. -/
theorem C446_fails : ∃ (x y r : Ptr) (n0 n1 n2 J0 J1 : Nat) (m : Buf Int) (a : Nat × Nat × Nat → Int) (X Y : Nat × Nat × Nat × Nat × Nat → Int), n2 ≤ 64 ∧ y.s4 = x.s4 ∧
    Owns m (box3 n0 n1 n2) r.at3 a ∧ Reads m (box3 n0 n1 n2) r.at3 (box5 n0 n1 n2 J0 J1) x.at5 X ∧ Reads m (box3 n0 n1 n2) r.at3 (box5 n0 n1 n2 J0 J1) y.at5 Y ∧
    ¬ Ends (ein32 x y r n0 n1 n2 J0 J1) m fun m' => Upd m m' (box3 n0 n1 n2) r.at3 fun q =>
      a q + ∑ j0 ∈ range J0, ∑ j1 ∈ range J1, X (q.1, q.2.1, q.2.2, j0, j1) * Y (q.1, q.2.1, q.2.2, j0, j1) := by
  have hX : Reads (fun p => some (if p = 0 then 0 else 1) : Buf Int) (box3 1 1 1) (⟨0, 1, 1, 1, 0, 0⟩ : Ptr).at3 (box5 1 1 1 1 1) (⟨1, 1, 1, 1, 1, 1⟩ : Ptr).at5 fun _ => 1 := by
    refine ⟨?_, ?_⟩
    · rintro ⟨i0, i1, i2⟩ ⟨j0, j1, j2, j3, j4⟩ ⟨a1, a2, a3⟩ ⟨b1, b2, b3⟩
      dsimp only [Ptr.at3, Ptr.at5] at *
      omega
    · rintro ⟨i0, i1, i2, i3, i4⟩ ⟨a1, a2, a3⟩
      exact congrArg some (if_neg (by dsimp only [Ptr.at5] at *; omega))
  have hO : Owns (fun p => some (if p = 0 then 0 else 1) : Buf Int) (box3 1 1 1) (⟨0, 1, 1, 1, 0, 0⟩ : Ptr).at3 fun _ => 0 := by
    refine ⟨?_, ?_⟩
    · rintro ⟨i0, i1, i2⟩ ⟨j0, j1, j2⟩ ⟨a1, a2, a3⟩ ⟨b1, b2, b3⟩ e
      dsimp only [Ptr.at3] at *
      have : i0 = 0 ∧ j0 = 0 ∧ i1 = 0 ∧ j1 = 0 ∧ i2 = 0 ∧ j2 = 0 := by omega
      obtain ⟨rfl, rfl, rfl, rfl, rfl, rfl⟩ := this
      rfl
    · rintro ⟨i0, i1, i2⟩ ⟨a1, a2, a3⟩
      exact congrArg some (if_pos (by dsimp only [Ptr.at3] at *; omega))
  refine ⟨⟨1, 1, 1, 1, 1, 1⟩, ⟨1, 1, 1, 1, 1, 1⟩, ⟨0, 1, 1, 1, 0, 0⟩, 1, 1, 1, 1, 1, _, _, _, _, by decide, rfl, hO, hX, hX, fun h => ?_⟩
  obtain ⟨⟨m', hm⟩, hu⟩ := h
  obtain ⟨m1, e1, u1⟩ := hu _ hm
  obtain ⟨m2, e2, u2⟩ := (C446_fourfold _ _ _ 1 1 1 1 1 _ _ _ _ _ (by decide) (by decide) (by decide) (by decide) (by decide) rfl hO hX hX rfl).2 _ hm
  cases e1
  cases e2
  have h1 := u1.1 (0, 0, 0) ⟨by decide, by decide, by decide⟩
  rw [u2.1 (0, 0, 0) ⟨by decide, by decide, by decide⟩] at h1
  revert h1
  decide

end

end Cnine
