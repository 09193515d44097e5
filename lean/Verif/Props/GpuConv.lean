import Verif.Lemmas.GpuConv
import Verif.Lemmas.Conv
import Verif.Props.GpuT

/-!
# What the convolutions on the GPU do
-/

namespace Cnine

open Gpu Conv Finset

variable {α ι κ μ : Type}

theorem pair_lt {i j n k : Nat} (hi : i < n) (hj : j < k) : i * k + j < n * k := by
  have := Nat.mul_le_mul_right k (show i + 1 ≤ n from hi)
  rw [Nat.add_mul] at this
  omega

theorem pair_div {i j k : Nat} (hj : j < k) : (i * k + j) / k = i := by
  rw [Nat.add_comm, Nat.add_mul_div_right _ _ (by omega), Nat.div_eq_of_lt hj, Nat.zero_add]

theorem pair_mod {i j k : Nat} (hj : j < k) : (i * k + j) % k = j := by
  rw [Nat.add_comm, Nat.add_mul_mod_self_right, Nat.mod_eq_of_lt hj]

theorem lo_zero (i : Nat) : (0 : Int) = max 0 (0 - (i : Int)) := by omega

theorem hi_zero {i nj np : Nat} (h : i + nj ≤ np) : (nj : Int) = min (nj : Int) ((np : Int) - i + 0) := by omega

/-- The cells of two views. -/
def Gpu.both (E : κ → Prop) (d : κ → Nat) (F : μ → Prop) (e : μ → Nat) (p : Nat) : Prop := (∃ j, E j ∧ p = d j) ∨ ∃ j, F j ∧ p = e j

theorem Gpu.Ends.sums [AddCommMonoid α] {l : Launch α} {m : Buf α} {D : ι → Prop} {c : ι → Nat} {a v : ι → α} {E : κ → Prop} {d : κ → Nat} {b : κ → α} {F : μ → Prop} {e : μ → Nat} {b' : μ → α}
    {idx : D3 × D3 → ι} (hc : Covers l D idx) (hr : Owns m D c a) (hx : Reads m D c E d b) (hw : Reads m D c F e b')
    (h : ∀ q ∈ l.ids, One m (l.kern q.1 q.2) (c (idx q)) (a (idx q) + v (idx q)) (both E d F e)) : Ends [l] m fun m' => Upd m m' D c fun i => a i + v i :=
  Ends.covers (S := fun _ => both E d F e) hc h hr.inj fun i _ hi _ _ hs => by
    rcases hs with ⟨k, hk, e⟩ | ⟨k, hk, e⟩
    · exact hx.apart i k hi hk e
    · exact hw.apart i k hi hk e

/-- `RtensorConvolve2d` on the GPU, `(i0,i1,a,c)*(a',j0,j1,a) -> (i0+j0,i1+j1,a',c)`. -/
theorem C428_four [AddCommMonoid α] [Mul α] (r x w : RV4) (m : Buf α) (a X W : Nat × Nat × Nat × Nat → α) (h0 : r.n0 ≤ 2147483647) (h1 : r.n1 ≤ 65535) (h2 : r.n2 ≤ 65535) (h3 : r.n3 ≤ 1024)
    (e1 : r.n2 = w.n0) (e2 : x.n2 = w.n3) (e3 : r.n3 = x.n3) {pad0 pad1 : Int} (hp0 : HalfOf ((r.n0 : Int) - x.n0 + w.n1 - 1) pad0) (hp1 : HalfOf ((r.n1 : Int) - x.n1 + w.n2 - 1) pad1)
    (fit : pad0 = 0 → pad1 = 0 → r.n0 + w.n1 ≤ x.n0 + 1 ∧ r.n1 + w.n2 ≤ x.n1 + 1)
    (hr : Owns m r.dom r.cell a) (hx : Reads m r.dom r.cell x.dom x.cell X) (hw : Reads m r.dom r.cell w.dom w.cell W) :
    ∃ ls, conv2D4 r x w = .ok ls ∧ Ends ls m fun m' => Upd m m' r.dom r.cell fun q => a q + slide pad0 w.n1 x.n0 q.1 fun j0 p0 => slide pad1 w.n2 x.n1 q.2.1 fun j1 p1 =>
      ∑ b ∈ range w.n3, X (p0, p1, b, q.2.2.2) * W (q.2.2.1, j0, j1, b) := by
  refine ⟨_, by rw [conv2D4, decide_eq_true e1, decide_eq_true e2, decide_eq_true e3]; rfl, ?_⟩
  rw [padOf_eq hp0, padOf_eq hp1]
  have hc : Covers (⟨⟨r.n0, r.n1, r.n2⟩, ⟨r.n3, 1, 1⟩, if pad0 = 0 ∧ pad1 = 0 then c2D4 r x w else c2D4p r x w pad0 pad1⟩ : Launch α) r.dom fun q => (q.1.x, q.1.y, q.1.z, q.2.x) := by
    refine covers_box _ _ _ _ _ (fun i => (⟨i.1, i.2.1, i.2.2.1⟩, ⟨i.2.2.2, 0, 0⟩)) ?_ ?_ ?_ ?_ ?_ ?_ ?_ ?_
    all_goals first | box | (intro bx by' bz tx ty tz a1 a2 a3 a4 a5 a6; dsimp only [RV4.dom] at *; omega) | (intros; dsimp only [RV4.dom] at *; omega)
  refine Ends.sums hc hr hx hw fun q hq => ?_
  have hd := hc.mem q hq
  obtain ⟨⟨bx, by', bz⟩, ⟨tx, ty, tz⟩⟩ := q
  have hd' := hd
  dsimp only [RV4.dom] at hd' ⊢
  have er : r.cell (bx, by', bz, tx) = r.arr + (bx * r.s0 + by' * r.s1 + bz * r.s2 + tx * r.s3) := by rw [RV4.cell]; ring
  have fin : ∀ (S : Nat → Prop) (j0 j1 p0 p1 b : Nat) (k0 k1 : Int), j0 < w.n1 → j1 < w.n2 → p0 < x.n0 → p1 < x.n1 → b < w.n3 → k0 = p0 → k1 = p1 →
      Accum m (both x.dom x.cell w.dom w.cell) S (mulAdd (x.arr + (k0 * x.s0 + k1 * x.s1 + b * x.s2 + tx * x.s3)) (w.arr + bz * w.s0 + j0 * w.s1 + j1 * w.s2 + b * w.s3))
        (X (p0, p1, b, tx) * W (bz, j0, j1, b)) := by
    intro S j0 j1 p0 p1 b k0 k1 a1 a2 a3 a4 a5 a6 a7
    have dx : x.dom (p0, p1, b, tx) := ⟨by omega, by omega, by dsimp only; omega, by dsimp only; omega⟩
    have dw : w.dom (bz, j0, j1, b) := ⟨by dsimp only; omega, by omega, by dsimp only; omega, by dsimp only; omega⟩
    refine Accum.mulAdd (p := x.cell (p0, p1, b, tx)) (q := w.cell (bz, j0, j1, b)) ?_ ?_ (hx.val _ dx) (hw.val _ dw) (.inl ⟨_, dx, rfl⟩) (.inr ⟨_, dw, rfl⟩)
    · rw [a6, a7, RV4.cell]; push_cast; ring
    · rw [RV4.cell]; push_cast; ring
  split
  · rename_i hz
    obtain ⟨z0, z1⟩ := hz
    obtain ⟨f0, f1⟩ := fit z0 z1
    subst z0 z1
    rw [c2D4, er]
    refine body2_one (c := fun j0 p0 j1 p1 b => X (p0, p1, b, tx) * W (bz, j0, j1, b)) (er ▸ hr.val _ hd) (lo_zero _) (hi_zero (by omega)) (lo_zero _) (hi_zero (by omega)) ?_
    intro j0 p0 j1 p1 b b1 b2 b3 b4 b5 b6 b7
    refine fin _ j0 j1 p0 p1 b _ _ b1 b3 b2 b4 b5 ?_ ?_ <;> (dsimp only; omega)
  · rw [c2D4p, er]
    refine body2_one (c := fun j0 p0 j1 p1 b => X (p0, p1, b, tx) * W (bz, j0, j1, b)) (er ▸ hr.val _ hd) rfl rfl rfl rfl ?_
    intro j0 p0 j1 p1 b b1 b2 b3 b4 b5 b6 b7
    refine fin _ j0 j1 p0 p1 b _ _ b1 b3 b2 b4 b5 ?_ ?_ <;> (dsimp only; omega)

example : HalfOf ((4 : Int) - 4 + 3 - 1) 1 ∧
    Owns (fun p => some (p : Int)) (⟨0, 4, 3, 2, 2, 12, 4, 2, 1⟩ : RV4).dom (⟨0, 4, 3, 2, 2, 12, 4, 2, 1⟩ : RV4).cell (fun q => ((⟨0, 4, 3, 2, 2, 12, 4, 2, 1⟩ : RV4).cell q : Nat)) ∧ Reads (fun p => some (p : Int)) (⟨0, 4, 3, 2, 2, 12, 4, 2, 1⟩ : RV4).dom (⟨0, 4, 3, 2, 2, 12, 4, 2, 1⟩ : RV4).cell (⟨48, 4, 3, 3, 2, 18, 6, 2, 1⟩ : RV4).dom (⟨48, 4, 3, 3, 2, 18, 6, 2, 1⟩ : RV4).cell (fun q => ((⟨48, 4, 3, 3, 2, 18, 6, 2, 1⟩ : RV4).cell q : Nat)) ∧
    Reads (fun p => some (p : Int)) (⟨0, 4, 3, 2, 2, 12, 4, 2, 1⟩ : RV4).dom (⟨0, 4, 3, 2, 2, 12, 4, 2, 1⟩ : RV4).cell (⟨120, 2, 3, 3, 3, 27, 9, 3, 1⟩ : RV4).dom (⟨120, 2, 3, 3, 3, 27, 9, 3, 1⟩ : RV4).cell (fun q => ((⟨120, 2, 3, 3, 3, 27, 9, 3, 1⟩ : RV4).cell q : Nat)) := by
  refine ⟨by unfold HalfOf; omega, ⟨?_, fun _ _ => rfl⟩, ⟨?_, fun _ _ => rfl⟩, ⟨?_, fun _ _ => rfl⟩⟩
  · rintro ⟨i0, i1, i2, i3⟩ ⟨j0, j1, j2, j3⟩ hi hj e
    simp only [RV4.dom, RV4.cell, Prod.mk.injEq] at *
    omega
  · rintro ⟨i0, i1, i2, i3⟩ ⟨j0, j1, j2, j3⟩ hi hj
    simp only [RV4.dom, RV4.cell] at *
    omega
  · rintro ⟨i0, i1, i2, i3⟩ ⟨j0, j1, j2, j3⟩ hi hj
    simp only [RV4.dom, RV4.cell, RV4.dom, RV4.cell] at *
    omega

/-- `(b,i0,i1,a,c)*(a',j0,j1,a) -> (b,i0+j0,i1+j1,a',c)`. -/
theorem C428_five [AddCommMonoid α] [Mul α] (r x : RV5) (w : RV4) (m : Buf α) (a X : Nat × Nat × Nat × Nat × Nat → α) (W : Nat × Nat × Nat × Nat → α) (h0 : r.n0 ≤ 2147483647) (h1 : r.n1 * r.n2 ≤ 65535)
    (h2 : r.n3 ≤ 65535) (h3 : r.n4 ≤ 1024) (e1 : r.n0 = x.n0) (e2 : r.n3 = w.n0) (e3 : r.n4 = x.n4) (e4 : x.n3 = w.n3) {pad0 pad1 : Int} (hp0 : HalfOf ((r.n1 : Int) - x.n1 + w.n1 - 1) pad0)
    (hp1 : HalfOf ((r.n2 : Int) - x.n2 + w.n2 - 1) pad1) (fit : pad0 = 0 → pad1 = 0 → r.n1 + w.n1 ≤ x.n1 + 1 ∧ r.n2 + w.n2 ≤ x.n2 + 1)
    (hr : Owns m r.dom r.cell a) (hx : Reads m r.dom r.cell x.dom x.cell X) (hw : Reads m r.dom r.cell w.dom w.cell W) :
    ∃ ls, conv2D5 r x w = .ok ls ∧ Ends ls m fun m' => Upd m m' r.dom r.cell fun q => a q + slide pad0 w.n1 x.n1 q.2.1 fun j0 p0 => slide pad1 w.n2 x.n2 q.2.2.1 fun j1 p1 =>
      ∑ b ∈ range w.n3, X (q.1, p0, p1, b, q.2.2.2.2) * W (q.2.2.2.1, j0, j1, b) := by
  refine ⟨_, by rw [conv2D5, decide_eq_true e1, decide_eq_true e2, decide_eq_true e3, decide_eq_true e4]; rfl, ?_⟩
  rw [padOf_eq hp0, padOf_eq hp1]
  have hc : Covers (⟨⟨r.n0, r.n1 * r.n2, r.n3⟩, ⟨r.n4, 1, 1⟩, if pad0 = 0 ∧ pad1 = 0 then c2D5 r x w else c2D5p r x w pad0 pad1⟩ : Launch α) r.dom
      fun q => (q.1.x, q.1.y / r.n2, q.1.y % r.n2, q.1.z, q.2.x) := by
    refine covers_box _ _ _ _ _ (fun i => (⟨i.1, i.2.1 * r.n2 + i.2.2.1, i.2.2.2.1⟩, ⟨i.2.2.2.2, 0, 0⟩)) ?_ ?_ ?_ ?_ ?_ ?_ ?_ ?_
    · rintro ⟨i0, i1, i2, i3, i4⟩ ⟨a0, a1, a2, a3, a4⟩
      dsimp only at *
      refine ⟨⟨a0, ?_, a3⟩, a4, by omega, by omega⟩
      exact pair_lt a1 a2
    · rintro ⟨i0, i1, i2, i3, i4⟩ ⟨a0, a1, a2, a3, a4⟩
      dsimp only at *
      rw [pair_div a2, pair_mod a2]
    · intro bx by' bz tx ty tz a1 a2 a3 a4 a5 a6
      have hp : 0 < r.n2 := Nat.pos_of_ne_zero fun e => by dsimp only at a2; rw [e] at a2; omega
      dsimp only [RV5.dom] at *
      have := Nat.div_lt_of_lt_mul (show by' < r.n2 * r.n1 by rw [Nat.mul_comm]; exact a2)
      have := Nat.mod_lt by' hp
      have := Nat.div_add_mod' by' r.n2
      omega
    all_goals first | box | (dsimp only; omega)
  refine Ends.sums hc hr hx hw fun q hq => ?_
  have hd := hc.mem q hq
  obtain ⟨⟨bx, by', bz⟩, ⟨tx, ty, tz⟩⟩ := q
  have hd' := hd
  dsimp only [RV5.dom] at hd' ⊢
  have er : r.cell (bx, by' / r.n2, by' % r.n2, bz, tx) = r.arr + (bx * r.s0 + by' / r.n2 * r.s1 + by' % r.n2 * r.s2 + bz * r.s3 + tx * r.s4) := by rw [RV5.cell]; ring
  have fin : ∀ (S : Nat → Prop) (j0 j1 p0 p1 b : Nat) (k0 k1 : Int), j0 < w.n1 → j1 < w.n2 → p0 < x.n1 → p1 < x.n2 → b < w.n3 → k0 = p0 → k1 = p1 →
      Accum m (both x.dom x.cell w.dom w.cell) S (mulAdd (x.arr + (bx * x.s0 + k0 * x.s1 + k1 * x.s2 + b * x.s3 + tx * x.s4)) (w.arr + bz * w.s0 + j0 * w.s1 + j1 * w.s2 + b * w.s3))
        (X (bx, p0, p1, b, tx) * W (bz, j0, j1, b)) := by
    intro S j0 j1 p0 p1 b k0 k1 a1 a2 a3 a4 a5 a6 a7
    have dx : x.dom (bx, p0, p1, b, tx) := by dsimp only [RV5.dom]; omega
    have dw : w.dom (bz, j0, j1, b) := by dsimp only [RV4.dom]; omega
    refine Accum.mulAdd (p := x.cell (bx, p0, p1, b, tx)) (q := w.cell (bz, j0, j1, b)) ?_ ?_ (hx.val _ dx) (hw.val _ dw) (.inl ⟨_, dx, rfl⟩) (.inr ⟨_, dw, rfl⟩)
    · rw [a6, a7, RV5.cell]; push_cast; ring
    · rw [RV4.cell]; push_cast; ring
  split
  · rename_i hz
    obtain ⟨z0, z1⟩ := hz
    obtain ⟨f0, f1⟩ := fit z0 z1
    subst z0 z1
    rw [c2D5, er]
    refine body2_one (c := fun j0 p0 j1 p1 b => X (bx, p0, p1, b, tx) * W (bz, j0, j1, b)) (er ▸ hr.val _ hd) (lo_zero _) (hi_zero (by omega)) (lo_zero _) (hi_zero (by omega)) ?_
    intro j0 p0 j1 p1 b b1 b2 b3 b4 b5 b6 b7
    refine fin _ j0 j1 p0 p1 b _ _ b1 b3 b2 b4 b5 ?_ ?_ <;> (dsimp only; omega)
  · rw [c2D5p, er]
    refine body2_one (c := fun j0 p0 j1 p1 b => X (bx, p0, p1, b, tx) * W (bz, j0, j1, b)) (er ▸ hr.val _ hd) rfl rfl rfl rfl ?_
    intro j0 p0 j1 p1 b b1 b2 b3 b4 b5 b6 b7
    refine fin _ j0 j1 p0 p1 b _ _ b1 b3 b2 b4 b5 ?_ ?_ <;> (dsimp only; omega)

example : HalfOf ((4 : Int) - 4 + 3 - 1) 1 ∧
    Owns (fun p => some (p : Int)) (⟨0, 2, 4, 3, 2, 2, 48, 12, 4, 2, 1⟩ : RV5).dom (⟨0, 2, 4, 3, 2, 2, 48, 12, 4, 2, 1⟩ : RV5).cell (fun q => ((⟨0, 2, 4, 3, 2, 2, 48, 12, 4, 2, 1⟩ : RV5).cell q : Nat)) ∧ Reads (fun p => some (p : Int)) (⟨0, 2, 4, 3, 2, 2, 48, 12, 4, 2, 1⟩ : RV5).dom (⟨0, 2, 4, 3, 2, 2, 48, 12, 4, 2, 1⟩ : RV5).cell (⟨96, 2, 4, 3, 3, 2, 72, 18, 6, 2, 1⟩ : RV5).dom (⟨96, 2, 4, 3, 3, 2, 72, 18, 6, 2, 1⟩ : RV5).cell (fun q => ((⟨96, 2, 4, 3, 3, 2, 72, 18, 6, 2, 1⟩ : RV5).cell q : Nat)) ∧
    Reads (fun p => some (p : Int)) (⟨0, 2, 4, 3, 2, 2, 48, 12, 4, 2, 1⟩ : RV5).dom (⟨0, 2, 4, 3, 2, 2, 48, 12, 4, 2, 1⟩ : RV5).cell (⟨240, 2, 3, 3, 3, 27, 9, 3, 1⟩ : RV4).dom (⟨240, 2, 3, 3, 3, 27, 9, 3, 1⟩ : RV4).cell (fun q => ((⟨240, 2, 3, 3, 3, 27, 9, 3, 1⟩ : RV4).cell q : Nat)) := by
  refine ⟨by unfold HalfOf; omega, ⟨?_, fun _ _ => rfl⟩, ⟨?_, fun _ _ => rfl⟩, ⟨?_, fun _ _ => rfl⟩⟩
  · rintro ⟨i0, i1, i2, i3, i4⟩ ⟨j0, j1, j2, j3, j4⟩ hi hj e
    simp only [RV5.dom, RV5.cell, Prod.mk.injEq] at *
    omega
  · rintro ⟨i0, i1, i2, i3, i4⟩ ⟨j0, j1, j2, j3, j4⟩ hi hj
    simp only [RV5.dom, RV5.cell] at *
    omega
  · rintro ⟨i0, i1, i2, i3, i4⟩ ⟨j0, j1, j2, j3⟩ hi hj
    simp only [RV5.dom, RV5.cell, RV4.dom, RV4.cell] at *
    omega

/-- `RtensorConvolve3d` on the GPU, `(i0,i1,i2,a)*(a',j0,j1,j2,a) -> (i0+j0,i1+j1,i2+j2,a')`. -/
theorem C429_four [AddCommMonoid α] [Mul α] (r x : RV4) (w : RV5) (m : Buf α) (a X : Nat × Nat × Nat × Nat → α) (W : Nat × Nat × Nat × Nat × Nat → α) (h0 : r.n0 ≤ 2147483647) (h1 : r.n1 ≤ 65535)
    (h2 : r.n2 ≤ 65535) (h3 : r.n3 ≤ 1024) (e1 : r.n3 = w.n0) (e2 : x.n3 = w.n4) {pad0 pad1 pad2 : Int} (hp0 : HalfOf ((r.n0 : Int) - x.n0 + w.n1 - 1) pad0)
    (hp1 : HalfOf ((r.n1 : Int) - x.n1 + w.n2 - 1) pad1) (hp2 : HalfOf ((r.n2 : Int) - x.n2 + w.n3 - 1) pad2)
    (fit : pad0 = 0 → pad1 = 0 → pad2 = 0 → r.n0 + w.n1 ≤ x.n0 + 1 ∧ r.n1 + w.n2 ≤ x.n1 + 1 ∧ r.n2 + w.n3 ≤ x.n2 + 1)
    (hr : Owns m r.dom r.cell a) (hx : Reads m r.dom r.cell x.dom x.cell X) (hw : Reads m r.dom r.cell w.dom w.cell W) :
    ∃ ls, conv3D4 r x w = .ok ls ∧ Ends ls m fun m' => Upd m m' r.dom r.cell fun q => a q + slide pad0 w.n1 x.n0 q.1 fun j0 p0 => slide pad1 w.n2 x.n1 q.2.1 fun j1 p1 =>
      slide pad2 w.n3 x.n2 q.2.2.1 fun j2 p2 => ∑ b ∈ range w.n4, X (p0, p1, p2, b) * W (q.2.2.2, j0, j1, j2, b) := by
  refine ⟨_, by rw [conv3D4, decide_eq_true e1, decide_eq_true e2]; rfl, ?_⟩
  rw [padOf_eq hp0, padOf_eq hp1, padOf_eq hp2]
  have hc : Covers (⟨⟨r.n0, r.n1, r.n2⟩, ⟨r.n3, 1, 1⟩, if pad0 = 0 ∧ pad1 = 0 ∧ pad2 = 0 then c3D4 r x w else c3D4p r x w pad0 pad1 pad2⟩ : Launch α) r.dom fun q => (q.1.x, q.1.y, q.1.z, q.2.x) := by
    refine covers_box _ _ _ _ _ (fun i => (⟨i.1, i.2.1, i.2.2.1⟩, ⟨i.2.2.2, 0, 0⟩)) ?_ ?_ ?_ ?_ ?_ ?_ ?_ ?_
    all_goals first | box | (intro bx by' bz tx ty tz a1 a2 a3 a4 a5 a6; dsimp only [RV4.dom] at *; omega) | (intros; dsimp only [RV4.dom] at *; omega)
  refine Ends.sums hc hr hx hw fun q hq => ?_
  have hd := hc.mem q hq
  obtain ⟨⟨bx, by', bz⟩, ⟨tx, ty, tz⟩⟩ := q
  have hd' := hd
  dsimp only [RV4.dom] at hd' ⊢
  have er : r.cell (bx, by', bz, tx) = r.arr + (bx * r.s0 + by' * r.s1 + bz * r.s2 + tx * r.s3) := by rw [RV4.cell]; ring
  have fin : ∀ (S : Nat → Prop) (j0 j1 j2 p0 p1 p2 b : Nat) (k0 k1 k2 : Int), j0 < w.n1 → j1 < w.n2 → j2 < w.n3 → p0 < x.n0 → p1 < x.n1 → p2 < x.n2 → b < w.n4 → k0 = p0 → k1 = p1 → k2 = p2 →
      Accum m (both x.dom x.cell w.dom w.cell) S (mulAdd (x.arr + (k0 * x.s0 + k1 * x.s1 + k2 * x.s2 + b * x.s3)) (w.arr + tx * w.s0 + j0 * w.s1 + j1 * w.s2 + j2 * w.s3 + b * w.s4))
        (X (p0, p1, p2, b) * W (tx, j0, j1, j2, b)) := by
    intro S j0 j1 j2 p0 p1 p2 b k0 k1 k2 a1 a2 a3 a4 a5 a6 a7 c0 c1 c2
    have dx : x.dom (p0, p1, p2, b) := by dsimp only [RV4.dom]; omega
    have dw : w.dom (tx, j0, j1, j2, b) := by dsimp only [RV5.dom]; omega
    refine Accum.mulAdd (p := x.cell (p0, p1, p2, b)) (q := w.cell (tx, j0, j1, j2, b)) ?_ ?_ (hx.val _ dx) (hw.val _ dw) (.inl ⟨_, dx, rfl⟩) (.inr ⟨_, dw, rfl⟩)
    · rw [c0, c1, c2, RV4.cell]; push_cast; ring
    · rw [RV5.cell]; push_cast; ring
  split
  · rename_i hz
    obtain ⟨z0, z1, z2⟩ := hz
    obtain ⟨f0, f1, f2⟩ := fit z0 z1 z2
    subst z0 z1 z2
    rw [c3D4, er]
    refine body3_one (c := fun j0 p0 j1 p1 j2 p2 b => X (p0, p1, p2, b) * W (tx, j0, j1, j2, b)) (er ▸ hr.val _ hd) (lo_zero _) (hi_zero (by omega)) (lo_zero _) (hi_zero (by omega)) (lo_zero _) (hi_zero (by omega)) ?_
    intro j0 p0 j1 p1 j2 p2 b b1 b2 b3 b4 b5 b6 b7 b8 b9 b10
    refine fin _ j0 j1 j2 p0 p1 p2 b _ _ _ b1 b3 b5 b2 b4 b6 b7 ?_ ?_ ?_ <;> (dsimp only; omega)
  · rw [c3D4p, er]
    refine body3_one (c := fun j0 p0 j1 p1 j2 p2 b => X (p0, p1, p2, b) * W (tx, j0, j1, j2, b)) (er ▸ hr.val _ hd) rfl rfl rfl rfl rfl rfl ?_
    intro j0 p0 j1 p1 j2 p2 b b1 b2 b3 b4 b5 b6 b7 b8 b9 b10
    refine fin _ j0 j1 j2 p0 p1 p2 b _ _ _ b1 b3 b5 b2 b4 b6 b7 ?_ ?_ ?_ <;> (dsimp only; omega)

example : HalfOf ((4 : Int) - 4 + 3 - 1) 1 ∧
    Owns (fun p => some (p : Int)) (⟨0, 4, 3, 2, 2, 12, 4, 2, 1⟩ : RV4).dom (⟨0, 4, 3, 2, 2, 12, 4, 2, 1⟩ : RV4).cell (fun q => ((⟨0, 4, 3, 2, 2, 12, 4, 2, 1⟩ : RV4).cell q : Nat)) ∧ Reads (fun p => some (p : Int)) (⟨0, 4, 3, 2, 2, 12, 4, 2, 1⟩ : RV4).dom (⟨0, 4, 3, 2, 2, 12, 4, 2, 1⟩ : RV4).cell (⟨48, 4, 3, 2, 3, 18, 6, 3, 1⟩ : RV4).dom (⟨48, 4, 3, 2, 3, 18, 6, 3, 1⟩ : RV4).cell (fun q => ((⟨48, 4, 3, 2, 3, 18, 6, 3, 1⟩ : RV4).cell q : Nat)) ∧
    Reads (fun p => some (p : Int)) (⟨0, 4, 3, 2, 2, 12, 4, 2, 1⟩ : RV4).dom (⟨0, 4, 3, 2, 2, 12, 4, 2, 1⟩ : RV4).cell (⟨120, 2, 3, 3, 3, 3, 81, 27, 9, 3, 1⟩ : RV5).dom (⟨120, 2, 3, 3, 3, 3, 81, 27, 9, 3, 1⟩ : RV5).cell (fun q => ((⟨120, 2, 3, 3, 3, 3, 81, 27, 9, 3, 1⟩ : RV5).cell q : Nat)) := by
  refine ⟨by unfold HalfOf; omega, ⟨?_, fun _ _ => rfl⟩, ⟨?_, fun _ _ => rfl⟩, ⟨?_, fun _ _ => rfl⟩⟩
  · rintro ⟨i0, i1, i2, i3⟩ ⟨j0, j1, j2, j3⟩ hi hj e
    simp only [RV4.dom, RV4.cell, Prod.mk.injEq] at *
    omega
  · rintro ⟨i0, i1, i2, i3⟩ ⟨j0, j1, j2, j3⟩ hi hj
    simp only [RV4.dom, RV4.cell] at *
    omega
  · rintro ⟨i0, i1, i2, i3⟩ ⟨j0, j1, j2, j3, j4⟩ hi hj
    simp only [RV4.dom, RV4.cell, RV5.dom, RV5.cell] at *
    omega

/-- With a further axis, `(i0,i1,i2,a,c)*(a',j0,j1,j2,a) -> (i0+j0,i1+j1,i2+j2,a',c)`. -/
theorem C429_five [AddCommMonoid α] [Mul α] (r x w : RV5) (m : Buf α) (a X W : Nat × Nat × Nat × Nat × Nat → α) (h0 : r.n0 ≤ 2147483647) (h1 : r.n1 ≤ 65535)
    (h2 : r.n2 ≤ 65535) (h3 : r.n3 * r.n4 ≤ 1024) (e1 : r.n3 = w.n0) (e2 : x.n3 = w.n4) (e3 : r.n4 = x.n4) {pad0 pad1 pad2 : Int} (hp0 : HalfOf ((r.n0 : Int) - x.n0 + w.n1 - 1) pad0)
    (hp1 : HalfOf ((r.n1 : Int) - x.n1 + w.n2 - 1) pad1) (hp2 : HalfOf ((r.n2 : Int) - x.n2 + w.n3 - 1) pad2)
    (fit : pad0 = 0 → pad1 = 0 → pad2 = 0 → r.n0 + w.n1 ≤ x.n0 + 1 ∧ r.n1 + w.n2 ≤ x.n1 + 1 ∧ r.n2 + w.n3 ≤ x.n2 + 1)
    (hr : Owns m r.dom r.cell a) (hx : Reads m r.dom r.cell x.dom x.cell X) (hw : Reads m r.dom r.cell w.dom w.cell W) :
    ∃ ls, conv3D5 r x w = .ok ls ∧ Ends ls m fun m' => Upd m m' r.dom r.cell fun q => a q + slide pad0 w.n1 x.n0 q.1 fun j0 p0 => slide pad1 w.n2 x.n1 q.2.1 fun j1 p1 =>
      slide pad2 w.n3 x.n2 q.2.2.1 fun j2 p2 => ∑ b ∈ range w.n4, X (p0, p1, p2, b, q.2.2.2.2) * W (q.2.2.2.1, j0, j1, j2, b) := by
  refine ⟨_, by rw [conv3D5, decide_eq_true e1, decide_eq_true e2, decide_eq_true e3]; dsimp only [Res.assrt, Res.ok_bind]; exact if_pos h3, ?_⟩
  rw [padOf_eq hp0, padOf_eq hp1, padOf_eq hp2]
  have hc : Covers (⟨⟨r.n0, r.n1, r.n2⟩, ⟨r.n3, r.n4, 1⟩, if pad0 = 0 ∧ pad1 = 0 ∧ pad2 = 0 then c3D5 r x w else c3D5p r x w pad0 pad1 pad2⟩ : Launch α) r.dom fun q => (q.1.x, q.1.y, q.1.z, q.2.x, q.2.y) := by
    refine covers_box _ _ _ _ _ (fun i => (⟨i.1, i.2.1, i.2.2.1⟩, ⟨i.2.2.2.1, i.2.2.2.2, 0⟩)) ?_ ?_ ?_ ?_ ?_ ?_ ?_ ?_
    all_goals first | box | (intro bx by' bz tx ty tz a1 a2 a3 a4 a5 a6; dsimp only [RV5.dom] at *; omega) | (intros; dsimp only [RV5.dom] at *; omega)
  refine Ends.sums hc hr hx hw fun q hq => ?_
  have hd := hc.mem q hq
  obtain ⟨⟨bx, by', bz⟩, ⟨tx, ty, tz⟩⟩ := q
  have hd' := hd
  dsimp only [RV5.dom] at hd' ⊢
  have er : r.cell (bx, by', bz, tx, ty) = r.arr + (bx * r.s0 + by' * r.s1 + bz * r.s2 + tx * r.s3 + ty * r.s4) := by rw [RV5.cell]; ring
  have fin : ∀ (S : Nat → Prop) (j0 j1 j2 p0 p1 p2 b : Nat) (k0 k1 k2 : Int), j0 < w.n1 → j1 < w.n2 → j2 < w.n3 → p0 < x.n0 → p1 < x.n1 → p2 < x.n2 → b < w.n4 → k0 = p0 → k1 = p1 → k2 = p2 →
      Accum m (both x.dom x.cell w.dom w.cell) S (mulAdd (x.arr + (k0 * x.s0 + k1 * x.s1 + k2 * x.s2 + b * x.s3 + ty * x.s4)) (w.arr + tx * w.s0 + j0 * w.s1 + j1 * w.s2 + j2 * w.s3 + b * w.s4))
        (X (p0, p1, p2, b, ty) * W (tx, j0, j1, j2, b)) := by
    intro S j0 j1 j2 p0 p1 p2 b k0 k1 k2 a1 a2 a3 a4 a5 a6 a7 c0 c1 c2
    have dx : x.dom (p0, p1, p2, b, ty) := by dsimp only [RV5.dom]; omega
    have dw : w.dom (tx, j0, j1, j2, b) := by dsimp only [RV5.dom]; omega
    refine Accum.mulAdd (p := x.cell (p0, p1, p2, b, ty)) (q := w.cell (tx, j0, j1, j2, b)) ?_ ?_ (hx.val _ dx) (hw.val _ dw) (.inl ⟨_, dx, rfl⟩) (.inr ⟨_, dw, rfl⟩)
    · rw [c0, c1, c2, RV5.cell]; push_cast; ring
    · rw [RV5.cell]; push_cast; ring
  split
  · rename_i hz
    obtain ⟨z0, z1, z2⟩ := hz
    obtain ⟨f0, f1, f2⟩ := fit z0 z1 z2
    subst z0 z1 z2
    rw [c3D5, er]
    refine body3_one (c := fun j0 p0 j1 p1 j2 p2 b => X (p0, p1, p2, b, ty) * W (tx, j0, j1, j2, b)) (er ▸ hr.val _ hd) (lo_zero _) (hi_zero (by omega)) (lo_zero _) (hi_zero (by omega)) (lo_zero _) (hi_zero (by omega)) ?_
    intro j0 p0 j1 p1 j2 p2 b b1 b2 b3 b4 b5 b6 b7 b8 b9 b10
    refine fin _ j0 j1 j2 p0 p1 p2 b _ _ _ b1 b3 b5 b2 b4 b6 b7 ?_ ?_ ?_ <;> (dsimp only; omega)
  · rw [c3D5p, er]
    refine body3_one (c := fun j0 p0 j1 p1 j2 p2 b => X (p0, p1, p2, b, ty) * W (tx, j0, j1, j2, b)) (er ▸ hr.val _ hd) rfl rfl rfl rfl rfl rfl ?_
    intro j0 p0 j1 p1 j2 p2 b b1 b2 b3 b4 b5 b6 b7 b8 b9 b10
    refine fin _ j0 j1 j2 p0 p1 p2 b _ _ _ b1 b3 b5 b2 b4 b6 b7 ?_ ?_ ?_ <;> (dsimp only; omega)

example : HalfOf ((4 : Int) - 4 + 3 - 1) 1 ∧
    Owns (fun p => some (p : Int)) (⟨0, 4, 3, 2, 2, 2, 24, 8, 4, 2, 1⟩ : RV5).dom (⟨0, 4, 3, 2, 2, 2, 24, 8, 4, 2, 1⟩ : RV5).cell (fun q => ((⟨0, 4, 3, 2, 2, 2, 24, 8, 4, 2, 1⟩ : RV5).cell q : Nat)) ∧ Reads (fun p => some (p : Int)) (⟨0, 4, 3, 2, 2, 2, 24, 8, 4, 2, 1⟩ : RV5).dom (⟨0, 4, 3, 2, 2, 2, 24, 8, 4, 2, 1⟩ : RV5).cell (⟨96, 4, 3, 2, 3, 2, 36, 12, 6, 2, 1⟩ : RV5).dom (⟨96, 4, 3, 2, 3, 2, 36, 12, 6, 2, 1⟩ : RV5).cell (fun q => ((⟨96, 4, 3, 2, 3, 2, 36, 12, 6, 2, 1⟩ : RV5).cell q : Nat)) ∧
    Reads (fun p => some (p : Int)) (⟨0, 4, 3, 2, 2, 2, 24, 8, 4, 2, 1⟩ : RV5).dom (⟨0, 4, 3, 2, 2, 2, 24, 8, 4, 2, 1⟩ : RV5).cell (⟨240, 2, 3, 3, 3, 3, 81, 27, 9, 3, 1⟩ : RV5).dom (⟨240, 2, 3, 3, 3, 3, 81, 27, 9, 3, 1⟩ : RV5).cell (fun q => ((⟨240, 2, 3, 3, 3, 3, 81, 27, 9, 3, 1⟩ : RV5).cell q : Nat)) := by
  refine ⟨by unfold HalfOf; omega, ⟨?_, fun _ _ => rfl⟩, ⟨?_, fun _ _ => rfl⟩, ⟨?_, fun _ _ => rfl⟩⟩
  · rintro ⟨i0, i1, i2, i3, i4⟩ ⟨j0, j1, j2, j3, j4⟩ hi hj e
    simp only [RV5.dom, RV5.cell, Prod.mk.injEq] at *
    omega
  · rintro ⟨i0, i1, i2, i3, i4⟩ ⟨j0, j1, j2, j3, j4⟩ hi hj
    simp only [RV5.dom, RV5.cell] at *
    omega
  · rintro ⟨i0, i1, i2, i3, i4⟩ ⟨j0, j1, j2, j3, j4⟩ hi hj
    simp only [RV5.dom, RV5.cell, RV5.dom, RV5.cell] at *
    omega

/-- With batches too, `(b,i0,i1,i2,a,c)*(a',j0,j1,j2,a) -> (b,i0+j0,i1+j1,i2+j2,a',c)`. -/
theorem C429_six [AddCommMonoid α] [Mul α] (r x : RV6) (w : RV5) (m : Buf α) (a X : Nat × Nat × Nat × Nat × Nat × Nat → α) (W : Nat × Nat × Nat × Nat × Nat → α) (h0 : r.n0 * r.n1 ≤ 2147483647)
    (h1 : r.n2 ≤ 65535) (h2 : r.n3 ≤ 65535) (h3 : r.n4 * r.n5 ≤ 1024) (e1 : r.n0 = x.n0) (e2 : r.n4 = w.n0) (e3 : r.n5 = x.n5) (e4 : x.n4 = w.n4) {pad0 pad1 pad2 : Int}
    (hp0 : HalfOf ((r.n1 : Int) - x.n1 + w.n1 - 1) pad0) (hp1 : HalfOf ((r.n2 : Int) - x.n2 + w.n2 - 1) pad1) (hp2 : HalfOf ((r.n3 : Int) - x.n3 + w.n3 - 1) pad2)
    (fit : pad0 = 0 → pad1 = 0 → pad2 = 0 → r.n1 + w.n1 ≤ x.n1 + 1 ∧ r.n2 + w.n2 ≤ x.n2 + 1 ∧ r.n3 + w.n3 ≤ x.n3 + 1)
    (hr : Owns m r.dom r.cell a) (hx : Reads m r.dom r.cell x.dom x.cell X) (hw : Reads m r.dom r.cell w.dom w.cell W) :
    ∃ ls, conv3D6 r x w = .ok ls ∧ Ends ls m fun m' => Upd m m' r.dom r.cell fun q => a q + slide pad0 w.n1 x.n1 q.2.1 fun j0 p0 => slide pad1 w.n2 x.n2 q.2.2.1 fun j1 p1 =>
      slide pad2 w.n3 x.n3 q.2.2.2.1 fun j2 p2 => ∑ b ∈ range w.n4, X (q.1, p0, p1, p2, b, q.2.2.2.2.2) * W (q.2.2.2.2.1, j0, j1, j2, b) := by
  refine ⟨_, by rw [conv3D6, decide_eq_true e1, decide_eq_true e2, decide_eq_true e3, decide_eq_true e4]; dsimp only [Res.assrt, Res.ok_bind]; exact if_pos h3, ?_⟩
  rw [padOf_eq hp0, padOf_eq hp1, padOf_eq hp2]
  have hc : Covers (⟨⟨r.n0 * r.n1, r.n2, r.n3⟩, ⟨r.n4, r.n5, 1⟩, if pad0 = 0 ∧ pad1 = 0 ∧ pad2 = 0 then c3D6 r x w else c3D6p r x w pad0 pad1 pad2⟩ : Launch α) r.dom
      fun q => (q.1.x / r.n1, q.1.x % r.n1, q.1.y, q.1.z, q.2.x, q.2.y) := by
    refine covers_box _ _ _ _ _ (fun i => (⟨i.1 * r.n1 + i.2.1, i.2.2.1, i.2.2.2.1⟩, ⟨i.2.2.2.2.1, i.2.2.2.2.2, 0⟩)) ?_ ?_ ?_ ?_ ?_ ?_ ?_ ?_
    · rintro ⟨i0, i1, i2, i3, i4, i5⟩ ⟨a0, a1, a2, a3, a4, a5⟩
      dsimp only at *
      exact ⟨⟨pair_lt a0 a1, a2, a3⟩, a4, a5, by omega⟩
    · rintro ⟨i0, i1, i2, i3, i4, i5⟩ ⟨a0, a1, a2, a3, a4, a5⟩
      dsimp only at *
      rw [pair_div a1, pair_mod a1]
    · intro bx by' bz tx ty tz a1 a2 a3 a4 a5 a6
      have hp : 0 < r.n1 := Nat.pos_of_ne_zero fun e => by dsimp only at a1; rw [e] at a1; omega
      dsimp only [RV6.dom] at *
      have := Nat.div_lt_of_lt_mul (show bx < r.n1 * r.n0 by rw [Nat.mul_comm]; exact a1)
      have := Nat.mod_lt bx hp
      have := Nat.div_add_mod' bx r.n1
      omega
    all_goals first | box | (dsimp only; omega)
  refine Ends.sums hc hr hx hw fun q hq => ?_
  have hd := hc.mem q hq
  obtain ⟨⟨bx, by', bz⟩, ⟨tx, ty, tz⟩⟩ := q
  have hd' := hd
  dsimp only [RV6.dom] at hd' ⊢
  have er : r.cell (bx / r.n1, bx % r.n1, by', bz, tx, ty) = r.arr + (bx / r.n1 * r.s0 + bx % r.n1 * r.s1 + by' * r.s2 + bz * r.s3 + tx * r.s4 + ty * r.s5) := by rw [RV6.cell]; ring
  have fin : ∀ (S : Nat → Prop) (j0 j1 j2 p0 p1 p2 b : Nat) (k0 k1 k2 : Int), j0 < w.n1 → j1 < w.n2 → j2 < w.n3 → p0 < x.n1 → p1 < x.n2 → p2 < x.n3 → b < w.n4 → k0 = p0 → k1 = p1 → k2 = p2 →
      Accum m (both x.dom x.cell w.dom w.cell) S
        (mulAdd (x.arr + ((bx / r.n1 : Nat) * x.s0 + k0 * x.s1 + k1 * x.s2 + k2 * x.s3 + b * x.s4 + ty * x.s5)) (w.arr + tx * w.s0 + j0 * w.s1 + j1 * w.s2 + j2 * w.s3 + b * w.s4))
        (X (bx / r.n1, p0, p1, p2, b, ty) * W (tx, j0, j1, j2, b)) := by
    intro S j0 j1 j2 p0 p1 p2 b k0 k1 k2 a1 a2 a3 a4 a5 a6 a7 c0 c1 c2
    have dx : x.dom (bx / r.n1, p0, p1, p2, b, ty) := by dsimp only [RV6.dom]; omega
    have dw : w.dom (tx, j0, j1, j2, b) := by dsimp only [RV5.dom]; omega
    refine Accum.mulAdd (p := x.cell (bx / r.n1, p0, p1, p2, b, ty)) (q := w.cell (tx, j0, j1, j2, b)) ?_ ?_ (hx.val _ dx) (hw.val _ dw) (.inl ⟨_, dx, rfl⟩) (.inr ⟨_, dw, rfl⟩)
    · rw [c0, c1, c2, RV6.cell]; push_cast; ring
    · rw [RV5.cell]; push_cast; ring
  split
  · rename_i hz
    obtain ⟨z0, z1, z2⟩ := hz
    obtain ⟨f0, f1, f2⟩ := fit z0 z1 z2
    subst z0 z1 z2
    rw [c3D6, er]
    refine body3_one (c := fun j0 p0 j1 p1 j2 p2 b => X (bx / r.n1, p0, p1, p2, b, ty) * W (tx, j0, j1, j2, b)) (er ▸ hr.val _ hd) (lo_zero _) (hi_zero (by omega)) (lo_zero _) (hi_zero (by omega)) (lo_zero _) (hi_zero (by omega)) ?_
    intro j0 p0 j1 p1 j2 p2 b b1 b2 b3 b4 b5 b6 b7 b8 b9 b10
    refine fin _ j0 j1 j2 p0 p1 p2 b _ _ _ b1 b3 b5 b2 b4 b6 b7 ?_ ?_ ?_ <;> (dsimp only; omega)
  · rw [c3D6p, er]
    refine body3_one (c := fun j0 p0 j1 p1 j2 p2 b => X (bx / r.n1, p0, p1, p2, b, ty) * W (tx, j0, j1, j2, b)) (er ▸ hr.val _ hd) rfl rfl rfl rfl rfl rfl ?_
    intro j0 p0 j1 p1 j2 p2 b b1 b2 b3 b4 b5 b6 b7 b8 b9 b10
    refine fin _ j0 j1 j2 p0 p1 p2 b _ _ _ b1 b3 b5 b2 b4 b6 b7 ?_ ?_ ?_ <;> (dsimp only; omega)

example : HalfOf ((4 : Int) - 4 + 3 - 1) 1 ∧
    Owns (fun p => some (p : Int)) (⟨0, 2, 4, 3, 2, 2, 2, 96, 24, 8, 4, 2, 1⟩ : RV6).dom (⟨0, 2, 4, 3, 2, 2, 2, 96, 24, 8, 4, 2, 1⟩ : RV6).cell (fun q => ((⟨0, 2, 4, 3, 2, 2, 2, 96, 24, 8, 4, 2, 1⟩ : RV6).cell q : Nat)) ∧ Reads (fun p => some (p : Int)) (⟨0, 2, 4, 3, 2, 2, 2, 96, 24, 8, 4, 2, 1⟩ : RV6).dom (⟨0, 2, 4, 3, 2, 2, 2, 96, 24, 8, 4, 2, 1⟩ : RV6).cell (⟨192, 2, 4, 3, 2, 3, 2, 144, 36, 12, 6, 2, 1⟩ : RV6).dom (⟨192, 2, 4, 3, 2, 3, 2, 144, 36, 12, 6, 2, 1⟩ : RV6).cell (fun q => ((⟨192, 2, 4, 3, 2, 3, 2, 144, 36, 12, 6, 2, 1⟩ : RV6).cell q : Nat)) ∧
    Reads (fun p => some (p : Int)) (⟨0, 2, 4, 3, 2, 2, 2, 96, 24, 8, 4, 2, 1⟩ : RV6).dom (⟨0, 2, 4, 3, 2, 2, 2, 96, 24, 8, 4, 2, 1⟩ : RV6).cell (⟨480, 2, 3, 3, 3, 3, 81, 27, 9, 3, 1⟩ : RV5).dom (⟨480, 2, 3, 3, 3, 3, 81, 27, 9, 3, 1⟩ : RV5).cell (fun q => ((⟨480, 2, 3, 3, 3, 3, 81, 27, 9, 3, 1⟩ : RV5).cell q : Nat)) := by
  refine ⟨by unfold HalfOf; omega, ⟨?_, fun _ _ => rfl⟩, ⟨?_, fun _ _ => rfl⟩, ⟨?_, fun _ _ => rfl⟩⟩
  · rintro ⟨i0, i1, i2, i3, i4, i5⟩ ⟨j0, j1, j2, j3, j4, j5⟩ hi hj e
    simp only [RV6.dom, RV6.cell, Prod.mk.injEq] at *
    omega
  · rintro ⟨i0, i1, i2, i3, i4, i5⟩ ⟨j0, j1, j2, j3, j4, j5⟩ hi hj
    simp only [RV6.dom, RV6.cell] at *
    omega
  · rintro ⟨i0, i1, i2, i3, i4, i5⟩ ⟨j0, j1, j2, j3, j4⟩ hi hj
    simp only [RV6.dom, RV6.cell, RV5.dom, RV5.cell] at *
    omega

end Cnine
