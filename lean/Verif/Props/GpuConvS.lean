import Verif.Props.GpuConv

/-!
# Convolutions with sparse filters on the GPU
-/

namespace Cnine

open Gpu Conv Finset

variable {α ι κ : Type}

/-- The column of a filter entry. -/
def Gpu.col (J1 J2 na : Nat) (t : Nat × Nat × Nat × Nat) : Nat := ((t.1 * J1 + t.2.1) * J2 + t.2.2.1) * na + t.2.2.2

theorem cut_col {J1 J2 na : Nat} {t : Nat × Nat × Nat × Nat} (h1 : t.2.1 < J1) (h2 : t.2.2.1 < J2) (h3 : t.2.2.2 < na) : cut J1 J2 na (col J1 J2 na t) = t := by
  obtain ⟨j0, j1, j2, a⟩ := t
  dsimp only at h1 h2 h3
  have e1 : col J1 J2 na (j0, j1, j2, a) / na = (j0 * J1 + j1) * J2 + j2 := pair_div h3
  have e2 : col J1 J2 na (j0, j1, j2, a) / (J2 * na) = j0 * J1 + j1 := by rw [Nat.mul_comm J2, ← Nat.div_div_eq_div_mul, e1, pair_div h2]
  have e3 : col J1 J2 na (j0, j1, j2, a) / (J1 * J2 * na) = j0 := by
    rw [Nat.mul_assoc, Nat.mul_comm J1, ← Nat.div_div_eq_div_mul, e2, pair_div h1]
  have e4 : col J1 J2 na (j0, j1, j2, a) % na = a := pair_mod h3
  have e5 : j0 * J1 + j1 - j0 * J1 = j1 := by omega
  have e6 : (j0 * J1 + j1) * J2 + j2 - (j0 * J1 * J2 + j1 * J2) = j2 := by rw [Nat.add_mul]; omega
  rw [cut, e3, e2, e1, e4]
  rw [e5, e6]

theorem bodyS_one [AddCommMonoid α] [Mul α] {m : Buf α} {R : Nat → Prop} {dst : Nat} {a : α} (es : List ((Nat × Nat × Nat × Nat) × α)) (J1 J2 na : Nat) (skip : Nat → Nat → Nat → Bool)
    (xa : Nat → Nat → Nat → Nat → Nat) (u : Nat × Nat × Nat × Nat → α) (ha : m dst = some a) (hes : ∀ e ∈ es, e.1.2.1 < J1 ∧ e.1.2.2.1 < J2 ∧ e.1.2.2.2 < na)
    (hR : ∀ e ∈ es, skip e.1.1 e.1.2.1 e.1.2.2.1 = false → R (xa e.1.1 e.1.2.1 e.1.2.2.1 e.1.2.2.2) ∧ m (xa e.1.1 e.1.2.1 e.1.2.2.1 e.1.2.2.2) = some (u e.1)) :
    One m (bodyS (es.map fun e => (col J1 J2 na e.1, e.2)) J1 J2 na skip xa dst) dst (a + (es.map fun e => if skip e.1.1 e.1.2.1 e.1.2.2.1 then 0 else u e.1 * e.2).sum) R := by
  have key : ∀ (es : List ((Nat × Nat × Nat × Nat) × α)) (p : Thr α α) (v : α), (∀ e ∈ es, e.1.2.1 < J1 ∧ e.1.2.2.1 < J2 ∧ e.1.2.2.2 < na) →
      (∀ e ∈ es, skip e.1.1 e.1.2.1 e.1.2.2.1 = false → R (xa e.1.1 e.1.2.1 e.1.2.2.1 e.1.2.2.2) ∧ m (xa e.1.1 e.1.2.1 e.1.2.2.1 e.1.2.2.2) = some (u e.1)) →
      Within R (· = dst) p → p.run m = .ok (m, v) →
      Within R (· = dst) ((es.map fun e => (col J1 J2 na e.1, e.2)).foldl (fun (p : Thr α α) e => do
        let t ← p
        let (j0, j1, j2, a) := cut J1 J2 na e.1
        if skip j0 j1 j2 then pure t else do
          let u ← Thr.rd (xa j0 j1 j2 a)
          pure (t + u * e.2)) p) ∧
      ((es.map fun e => (col J1 J2 na e.1, e.2)).foldl (fun (p : Thr α α) e => do
        let t ← p
        let (j0, j1, j2, a) := cut J1 J2 na e.1
        if skip j0 j1 j2 then pure t else do
          let u ← Thr.rd (xa j0 j1 j2 a)
          pure (t + u * e.2)) p).run m = .ok (m, v + (es.map fun e => if skip e.1.1 e.1.2.1 e.1.2.2.1 then 0 else u e.1 * e.2).sum) := by
    intro es
    induction es with
    | nil =>
      intro p v _ _ hw hr
      refine ⟨hw, ?_⟩
      simpa using hr
    | cons e es ih =>
      intro p v h1 h2 hw hr
      have q1 := h1 e (List.mem_cons_self ..)
      have q2 := h2 e (List.mem_cons_self ..)
      simp only [List.map_cons, List.foldl_cons, List.sum_cons, cut_col q1.1 q1.2.1 q1.2.2]
      rw [← add_assoc]
      refine ih _ _ (fun e he => h1 e (List.mem_cons_of_mem _ he)) (fun e he => h2 e (List.mem_cons_of_mem _ he)) ?_ ?_
      · refine hw.bind fun t => ?_
        cases hs : skip e.1.1 e.1.2.1 e.1.2.2.1 with
        | true => exact Within.ret _
        | false => exact (Within.rd (.inl (q2 hs).1)).bind fun _ => Within.ret _
      · rw [Thr.run_bind, hr, Res.ok_bind]
        cases hs : skip e.1.1 e.1.2.1 e.1.2.2.1 with
        | true => simp [Thr.run_ret]
        | false =>
          simp only [Bool.false_eq_true, if_false]
          rw [Thr.run_bind, Thr.run_rd (q2 hs).2, Res.ok_bind]
          rfl
  obtain ⟨k1, k2⟩ := key es (pure 0) 0 hes hR (Within.ret _) (Thr.run_ret _ _)
  refine ⟨k1.bind fun t => Within.inc rfl, ?_⟩
  rw [bodyS, Thr.run_bind, k2, Res.ok_bind, zero_add]
  exact Thr.run_inc _ ha

/-- Three indices in one. -/
theorem triple_spec {i0 i1 i2 n1 n2 : Nat} (h1 : i1 < n1) (h2 : i2 < n2) :
    ((i0 * n1 + i1) * n2 + i2) / (n1 * n2) = i0 ∧ ((i0 * n1 + i1) * n2 + i2) / n2 - i0 * n1 = i1 ∧ ((i0 * n1 + i1) * n2 + i2) % n2 = i2 := by
  have e1 : ((i0 * n1 + i1) * n2 + i2) / n2 = i0 * n1 + i1 := pair_div h2
  refine ⟨?_, ?_, pair_mod h2⟩
  · rw [Nat.mul_comm n1, ← Nat.div_div_eq_div_mul, e1, pair_div h1]
  · rw [e1]; omega

theorem triple_inv {b n0 n1 n2 : Nat} (h : b < n0 * n1 * n2) :
    b / (n1 * n2) < n0 ∧ b / n2 - b / (n1 * n2) * n1 < n1 ∧ b % n2 < n2 ∧ (b / (n1 * n2) * n1 + (b / n2 - b / (n1 * n2) * n1)) * n2 + b % n2 = b := by
  have p2 : 0 < n2 := Nat.pos_of_ne_zero fun e => by rw [e] at h; omega
  have p1 : 0 < n1 := Nat.pos_of_ne_zero fun e => by rw [e] at h; omega
  have e0 : b / (n1 * n2) = b / n2 / n1 := by rw [Nat.mul_comm n1, ← Nat.div_div_eq_div_mul]
  have e1 := Nat.div_add_mod' (b / n2) n1
  have e2 := Nat.div_add_mod' b n2
  have e3 := Nat.mod_lt (b / n2) p1
  refine ⟨Nat.div_lt_of_lt_mul (by rw [Nat.mul_comm, ← Nat.mul_assoc]; exact h), ?_, Nat.mod_lt _ p2, ?_⟩
  · rw [e0]; omega
  · rw [e0]
    have : b / n2 / n1 * n1 + (b / n2 - b / n2 / n1 * n1) = b / n2 := by omega
    rw [this]; exact e2

theorem sparse5_core [AddCommMonoid α] [Mul α] (r x : RV5) (es : Nat → List ((Nat × Nat × Nat × Nat) × α)) (J1 J2 : Nat) (skip : Nat → Nat → Nat → Nat → Nat → Nat → Bool) (m : Buf α)
    (a X : Nat × Nat × Nat × Nat × Nat → α) (h0 : r.n0 * r.n1 * r.n2 ≤ 2147483647) (h1 : r.n3 ≤ 65535) (h2 : r.n4 ≤ 1024) (e2 : r.n4 = x.n4)
    (hes : ∀ c, c < r.n3 → ∀ e ∈ es c, e.1.2.1 < J1 ∧ e.1.2.2.1 < J2 ∧ e.1.2.2.2 < x.n3)
    (hin : ∀ i0 i1 i2 c, i0 < r.n0 → i1 < r.n1 → i2 < r.n2 → c < r.n3 → ∀ e ∈ es c, skip i0 i1 i2 e.1.1 e.1.2.1 e.1.2.2.1 = false → i0 + e.1.1 < x.n0 ∧ i1 + e.1.2.1 < x.n1 ∧ i2 + e.1.2.2.1 < x.n2)
    (hr : Owns m r.dom r.cell a) (hx : Reads m r.dom r.cell x.dom x.cell X) :
    Ends [⟨⟨r.n0 * r.n1 * r.n2, r.n3, 1⟩, ⟨r.n4, 1, 1⟩, s3D5 r x (fun c => (es c).map fun e => (col J1 J2 x.n3 e.1, e.2)) J1 J2 skip⟩] m fun m' => Upd m m' r.dom r.cell fun q => a q +
      ((es q.2.2.2.1).map fun e => if skip q.1 q.2.1 q.2.2.1 e.1.1 e.1.2.1 e.1.2.2.1 then 0 else
        X (q.1 + e.1.1, q.2.1 + e.1.2.1, q.2.2.1 + e.1.2.2.1, e.1.2.2.2, q.2.2.2.2) * e.2).sum := by
  have hc : Covers (⟨⟨r.n0 * r.n1 * r.n2, r.n3, 1⟩, ⟨r.n4, 1, 1⟩, s3D5 r x (fun c => (es c).map fun e => (col J1 J2 x.n3 e.1, e.2)) J1 J2 skip⟩ : Launch α) r.dom
      fun q => (q.1.x / (r.n1 * r.n2), q.1.x / r.n2 - q.1.x / (r.n1 * r.n2) * r.n1, q.1.x % r.n2, q.1.y, q.2.x) := by
    refine covers_box _ _ _ _ _ (fun i => (⟨(i.1 * r.n1 + i.2.1) * r.n2 + i.2.2.1, i.2.2.2.1, 0⟩, ⟨i.2.2.2.2, 0, 0⟩)) ?_ ?_ ?_ ?_ ?_ ?_ ?_ ?_
    · rintro ⟨i0, i1, i2, i3, i4⟩ ⟨a0, a1, a2, a3, a4⟩
      dsimp only at *
      exact ⟨⟨pair_lt (pair_lt a0 a1) a2, a3, by omega⟩, a4, by omega, by omega⟩
    · rintro ⟨i0, i1, i2, i3, i4⟩ ⟨a0, a1, a2, a3, a4⟩
      dsimp only at *
      obtain ⟨t0, t1, t2⟩ := triple_spec (i0 := i0) a1 a2
      rw [t0, t1, t2]
    · intro bx by' bz tx ty tz a1 a2 a3 a4 a5 a6
      obtain ⟨t0, t1, t2, t3⟩ := triple_inv a1
      dsimp only [RV5.dom] at *
      omega
    all_goals first | box | (dsimp only; omega)
  refine Ends.covers (S := fun _ p => ∃ j, x.dom j ∧ p = x.cell j) hc (fun q hq => ?_) hr.inj fun i _ hi _ _ ⟨j, hj, e⟩ => hx.apart i j hi hj e
  have hd := hc.mem q hq
  obtain ⟨⟨bx, by', bz⟩, ⟨tx, ty, tz⟩⟩ := q
  obtain ⟨d0, d1, d2, d3, d4⟩ := hd
  have hv := hr.val _ ⟨d0, d1, d2, d3, d4⟩
  dsimp only at d0 d1 d2 d3 d4 hv ⊢
  rw [s3D5]
  dsimp only
  generalize bx / (r.n1 * r.n2) = i0 at *
  generalize bx / r.n2 - i0 * r.n1 = i1 at *
  generalize bx % r.n2 = i2 at *
  have er : r.cell (i0, i1, i2, by', tx) = r.arr + (i0 * r.s0 + i1 * r.s1 + i2 * r.s2 + by' * r.s3 + tx * r.s4) := by rw [RV5.cell]; ring
  rw [← er]
  refine bodyS_one (es by') J1 J2 x.n3 (skip i0 i1 i2) _ (fun t => X (i0 + t.1, i1 + t.2.1, i2 + t.2.2.1, t.2.2.2, tx)) hv (hes by' d3) fun e he hs => ?_
  obtain ⟨b0, b1, b2⟩ := hin i0 i1 i2 by' d0 d1 d2 d3 e he hs
  have dx : x.dom (i0 + e.1.1, i1 + e.1.2.1, i2 + e.1.2.2.1, e.1.2.2.2, tx) := ⟨b0, b1, b2, (hes by' d3 e he).2.2, by dsimp only; omega⟩
  have ex : x.cell (i0 + e.1.1, i1 + e.1.2.1, i2 + e.1.2.2.1, e.1.2.2.2, tx) =
      x.arr + ((i0 + e.1.1) * x.s0 + (i1 + e.1.2.1) * x.s1 + (i2 + e.1.2.2.1) * x.s2 + e.1.2.2.2 * x.s3 + tx * x.s4) := by rw [RV5.cell]; ring
  rw [← ex]
  exact ⟨⟨_, dx, rfl⟩, hx.val _ dx⟩

theorem sparse6_core [AddCommMonoid α] [Mul α] (r x : RV6) (es : Nat → List ((Nat × Nat × Nat × Nat) × α)) (J1 J2 : Nat) (skip : Nat → Nat → Nat → Nat → Nat → Nat → Bool) (m : Buf α)
    (a X : Nat × Nat × Nat × Nat × Nat × Nat → α) (h0 : r.n1 * r.n2 * r.n3 ≤ 2147483647) (h1 : r.n4 ≤ 65535) (h2 : r.n0 ≤ 65535) (h3 : r.n5 ≤ 1024) (e1 : r.n0 = x.n0) (e2 : r.n5 = x.n5)
    (hes : ∀ c, c < r.n4 → ∀ e ∈ es c, e.1.2.1 < J1 ∧ e.1.2.2.1 < J2 ∧ e.1.2.2.2 < x.n4)
    (hin : ∀ i0 i1 i2 c, i0 < r.n1 → i1 < r.n2 → i2 < r.n3 → c < r.n4 → ∀ e ∈ es c, skip i0 i1 i2 e.1.1 e.1.2.1 e.1.2.2.1 = false → i0 + e.1.1 < x.n1 ∧ i1 + e.1.2.1 < x.n2 ∧ i2 + e.1.2.2.1 < x.n3)
    (hr : Owns m r.dom r.cell a) (hx : Reads m r.dom r.cell x.dom x.cell X) :
    Ends [⟨⟨r.n1 * r.n2 * r.n3, r.n4, r.n0⟩, ⟨r.n5, 1, 1⟩, s3D6 r x (fun c => (es c).map fun e => (col J1 J2 x.n4 e.1, e.2)) J1 J2 skip⟩] m fun m' => Upd m m' r.dom r.cell fun q => a q +
      ((es q.2.2.2.2.1).map fun e => if skip q.2.1 q.2.2.1 q.2.2.2.1 e.1.1 e.1.2.1 e.1.2.2.1 then 0 else
        X (q.1, q.2.1 + e.1.1, q.2.2.1 + e.1.2.1, q.2.2.2.1 + e.1.2.2.1, e.1.2.2.2, q.2.2.2.2.2) * e.2).sum := by
  have hc : Covers (⟨⟨r.n1 * r.n2 * r.n3, r.n4, r.n0⟩, ⟨r.n5, 1, 1⟩, s3D6 r x (fun c => (es c).map fun e => (col J1 J2 x.n4 e.1, e.2)) J1 J2 skip⟩ : Launch α) r.dom
      fun q => (q.1.z, q.1.x / (r.n2 * r.n3), q.1.x / r.n3 - q.1.x / (r.n2 * r.n3) * r.n2, q.1.x % r.n3, q.1.y, q.2.x) := by
    refine covers_box _ _ _ _ _ (fun i => (⟨(i.2.1 * r.n2 + i.2.2.1) * r.n3 + i.2.2.2.1, i.2.2.2.2.1, i.1⟩, ⟨i.2.2.2.2.2, 0, 0⟩)) ?_ ?_ ?_ ?_ ?_ ?_ ?_ ?_
    · rintro ⟨i, i0, i1, i2, i3, i4⟩ ⟨a', a0, a1, a2, a3, a4⟩
      dsimp only at *
      exact ⟨⟨pair_lt (pair_lt a0 a1) a2, a3, a'⟩, a4, by omega, by omega⟩
    · rintro ⟨i, i0, i1, i2, i3, i4⟩ ⟨a', a0, a1, a2, a3, a4⟩
      dsimp only at *
      obtain ⟨t0, t1, t2⟩ := triple_spec (i0 := i0) a1 a2
      rw [t0, t1, t2]
    · intro bx by' bz tx ty tz a1 a2 a3 a4 a5 a6
      obtain ⟨t0, t1, t2, t3⟩ := triple_inv a1
      dsimp only [RV6.dom] at *
      omega
    all_goals first | box | (dsimp only; omega)
  refine Ends.covers (S := fun _ p => ∃ j, x.dom j ∧ p = x.cell j) hc (fun q hq => ?_) hr.inj fun i _ hi _ _ ⟨j, hj, e⟩ => hx.apart i j hi hj e
  have hd := hc.mem q hq
  obtain ⟨⟨bx, by', bz⟩, ⟨tx, ty, tz⟩⟩ := q
  obtain ⟨d', d0, d1, d2, d3, d4⟩ := hd
  have hv := hr.val _ ⟨d', d0, d1, d2, d3, d4⟩
  dsimp only at d' d0 d1 d2 d3 d4 hv ⊢
  rw [s3D6]
  dsimp only
  generalize bx / (r.n2 * r.n3) = i0 at *
  generalize bx / r.n3 - i0 * r.n2 = i1 at *
  generalize bx % r.n3 = i2 at *
  have er : r.cell (bz, i0, i1, i2, by', tx) = r.arr + (bz * r.s0 + i0 * r.s1 + i1 * r.s2 + i2 * r.s3 + by' * r.s4 + tx * r.s5) := by rw [RV6.cell]; ring
  rw [← er]
  refine bodyS_one (es by') J1 J2 x.n4 (skip i0 i1 i2) _ (fun t => X (bz, i0 + t.1, i1 + t.2.1, i2 + t.2.2.1, t.2.2.2, tx)) hv (hes by' d3) fun e he hs => ?_
  obtain ⟨b0, b1, b2⟩ := hin i0 i1 i2 by' d0 d1 d2 d3 e he hs
  have dx : x.dom (bz, i0 + e.1.1, i1 + e.1.2.1, i2 + e.1.2.2.1, e.1.2.2.2, tx) := ⟨by dsimp only; omega, b0, b1, b2, (hes by' d3 e he).2.2, by dsimp only; omega⟩
  have ex : x.cell (bz, i0 + e.1.1, i1 + e.1.2.1, i2 + e.1.2.2.1, e.1.2.2.2, tx) =
      x.arr + (bz * x.s0 + (i0 + e.1.1) * x.s1 + (i1 + e.1.2.1) * x.s2 + (i2 + e.1.2.2.1) * x.s3 + e.1.2.2.2 * x.s4 + tx * x.s5) := by rw [RV6.cell]; ring
  rw [← ex]
  exact ⟨⟨_, dx, rfl⟩, hx.val _ dx⟩

/-- A sparse filter on the GPU without padding, `(i0,i1,i2,a,c)*(a',j0,j1,j2,a) -> (i0+j0,i1+j1,i2+j2,a',c)`: `es c` are the entries `((j0,j1,j2,a),v)` of the filter for the output channel `c`. -/
theorem C431_five [AddCommMonoid α] [Mul α] (r x : RV5) (es : Nat → List ((Nat × Nat × Nat × Nat) × α)) (J0 J1 J2 : Nat) (m : Buf α) (a X : Nat × Nat × Nat × Nat × Nat → α)
    (h0 : r.n0 * r.n1 * r.n2 ≤ 2147483647) (h1 : r.n3 ≤ 65535) (h2 : r.n4 ≤ 1024) (e2 : r.n4 = x.n4) (f0 : r.n0 + J0 = x.n0 + 1) (f1 : r.n1 + J1 = x.n1 + 1) (f2 : r.n2 + J2 = x.n2 + 1)
    (hes : ∀ c, c < r.n3 → ∀ e ∈ es c, e.1.1 < J0 ∧ e.1.2.1 < J1 ∧ e.1.2.2.1 < J2 ∧ e.1.2.2.2 < x.n3) (hr : Owns m r.dom r.cell a) (hx : Reads m r.dom r.cell x.dom x.cell X) :
    ∃ ls, sparse3D5 r x r.n3 (fun c => (es c).map fun e => (((e.1.1 * J1 + e.1.2.1) * J2 + e.1.2.2.1) * x.n3 + e.1.2.2.2, e.2)) J0 J1 J2 = .ok ls ∧
      Ends ls m fun m' => Upd m m' r.dom r.cell fun q => a q +
        ((es q.2.2.2.1).map fun e => X (q.1 + e.1.1, q.2.1 + e.1.2.1, q.2.2.1 + e.1.2.2.1, e.1.2.2.2, q.2.2.2.2) * e.2).sum := by
  refine ⟨_, by rw [sparse3D5, decide_eq_true e2, decide_eq_true rfl]; rfl, ?_⟩
  rw [padOf_eq (pad := 0) (.inl (by omega)), padOf_eq (pad := 0) (.inl (by omega)), padOf_eq (pad := 0) (.inl (by omega)), if_pos ⟨rfl, rfl, rfl⟩]
  have := sparse5_core r x es J1 J2 (fun _ _ _ _ _ _ => false) m a X h0 h1 h2 e2 (fun c hc e he => (hes c hc e he).2) (fun i0 i1 i2 c b0 b1 b2 b3 e he _ => by
    have := hes c b3 e he
    omega) hr hx
  simp only [Bool.false_eq_true, if_false] at this
  exact this

example : (∀ q, (⟨0, 2, 1, 3, 2, 2, 12, 12, 4, 2, 1⟩ : RV5).dom q → (⟨0, 2, 1, 3, 2, 2, 12, 12, 4, 2, 1⟩ : RV5).cell q < 24) ∧
    Owns (fun p => some (p : Int)) (⟨0, 2, 1, 3, 2, 2, 12, 12, 4, 2, 1⟩ : RV5).dom (⟨0, 2, 1, 3, 2, 2, 12, 12, 4, 2, 1⟩ : RV5).cell (fun q => ((⟨0, 2, 1, 3, 2, 2, 12, 12, 4, 2, 1⟩ : RV5).cell q : Nat)) ∧
    Reads (fun p => some (p : Int)) (⟨0, 2, 1, 3, 2, 2, 12, 12, 4, 2, 1⟩ : RV5).dom (⟨0, 2, 1, 3, 2, 2, 12, 12, 4, 2, 1⟩ : RV5).cell (⟨24, 3, 1, 4, 2, 2, 16, 16, 4, 2, 1⟩ : RV5).dom
      (⟨24, 3, 1, 4, 2, 2, 16, 16, 4, 2, 1⟩ : RV5).cell (fun q => ((⟨24, 3, 1, 4, 2, 2, 16, 16, 4, 2, 1⟩ : RV5).cell q : Nat)) := by
  refine ⟨?_, ⟨?_, fun _ _ => rfl⟩, ⟨?_, fun _ _ => rfl⟩⟩
  · rintro ⟨i0, i1, i2, i3, i4⟩ hi
    simp only [RV5.dom, RV5.cell] at *
    omega
  · rintro ⟨i0, i1, i2, i3, i4⟩ ⟨j0, j1, j2, j3, j4⟩ hi hj e
    simp only [RV5.dom, RV5.cell, Prod.mk.injEq] at *
    omega
  · rintro ⟨i0, i1, i2, i3, i4⟩ ⟨j0, j1, j2, j3, j4⟩ hi hj
    simp only [RV5.dom, RV5.cell] at *
    omega

/-- With batches, `(b,i0,i1,i2,a,c)*(a',j0,j1,j2,a) -> (b,i0+j0,i1+j1,i2+j2,a',c)`. -/
theorem C431_six [AddCommMonoid α] [Mul α] (r x : RV6) (es : Nat → List ((Nat × Nat × Nat × Nat) × α)) (J0 J1 J2 : Nat) (m : Buf α) (a X : Nat × Nat × Nat × Nat × Nat × Nat → α)
    (h0 : r.n1 * r.n2 * r.n3 ≤ 2147483647) (h1 : r.n4 ≤ 65535) (h2 : r.n0 ≤ 65535) (h3 : r.n5 ≤ 1024) (e1 : r.n0 = x.n0) (e2 : r.n5 = x.n5) (f0 : r.n1 + J0 = x.n1 + 1) (f1 : r.n2 + J1 = x.n2 + 1)
    (f2 : r.n3 + J2 = x.n3 + 1) (hes : ∀ c, c < r.n4 → ∀ e ∈ es c, e.1.1 < J0 ∧ e.1.2.1 < J1 ∧ e.1.2.2.1 < J2 ∧ e.1.2.2.2 < x.n4) (hr : Owns m r.dom r.cell a) (hx : Reads m r.dom r.cell x.dom x.cell X) :
    ∃ ls, sparse3D6 r x r.n4 (fun c => (es c).map fun e => (((e.1.1 * J1 + e.1.2.1) * J2 + e.1.2.2.1) * x.n4 + e.1.2.2.2, e.2)) J0 J1 J2 = .ok ls ∧
      Ends ls m fun m' => Upd m m' r.dom r.cell fun q => a q +
        ((es q.2.2.2.2.1).map fun e => X (q.1, q.2.1 + e.1.1, q.2.2.1 + e.1.2.1, q.2.2.2.1 + e.1.2.2.1, e.1.2.2.2, q.2.2.2.2.2) * e.2).sum := by
  refine ⟨_, by rw [sparse3D6, decide_eq_true e1, decide_eq_true e2, decide_eq_true rfl]; rfl, ?_⟩
  rw [padOf_eq (pad := 0) (.inl (by omega)), padOf_eq (pad := 0) (.inl (by omega)), padOf_eq (pad := 0) (.inl (by omega)), if_pos ⟨rfl, rfl, rfl⟩]
  have := sparse6_core r x es J1 J2 (fun _ _ _ _ _ _ => false) m a X h0 h1 h2 h3 e1 e2 (fun c hc e he => (hes c hc e he).2) (fun i0 i1 i2 c b0 b1 b2 b3 e he _ => by
    have := hes c b3 e he
    omega) hr hx
  simp only [Bool.false_eq_true, if_false] at this
  exact this

example : Owns (fun p => some (p : Int)) (⟨0, 2, 1, 1, 3, 2, 2, 12, 12, 12, 4, 2, 1⟩ : RV6).dom (⟨0, 2, 1, 1, 3, 2, 2, 12, 12, 12, 4, 2, 1⟩ : RV6).cell (fun q => ((⟨0, 2, 1, 1, 3, 2, 2, 12, 12, 12, 4, 2, 1⟩ : RV6).cell q : Nat)) ∧
    Reads (fun p => some (p : Int)) (⟨0, 2, 1, 1, 3, 2, 2, 12, 12, 12, 4, 2, 1⟩ : RV6).dom (⟨0, 2, 1, 1, 3, 2, 2, 12, 12, 12, 4, 2, 1⟩ : RV6).cell (⟨24, 2, 1, 1, 4, 2, 2, 16, 16, 16, 4, 2, 1⟩ : RV6).dom
      (⟨24, 2, 1, 1, 4, 2, 2, 16, 16, 16, 4, 2, 1⟩ : RV6).cell (fun q => ((⟨24, 2, 1, 1, 4, 2, 2, 16, 16, 16, 4, 2, 1⟩ : RV6).cell q : Nat)) := by
  refine ⟨⟨?_, fun _ _ => rfl⟩, ⟨?_, fun _ _ => rfl⟩⟩
  · rintro ⟨i0, i1, i2, i3, i4, i5⟩ ⟨j0, j1, j2, j3, j4, j5⟩ hi hj e
    simp only [RV6.dom, RV6.cell, Prod.mk.injEq] at *
    omega
  · rintro ⟨i0, i1, i2, i3, i4, i5⟩ ⟨j0, j1, j2, j3, j4, j5⟩ hi hj
    simp only [RV6.dom, RV6.cell] at *
    omega

theorem bodyS_within [AddCommMonoid α] [Mul α] (l : List (Nat × α)) (J1 J2 na : Nat) (skip : Nat → Nat → Nat → Bool) (xa : Nat → Nat → Nat → Nat → Nat) (dst : Nat) {W : Nat → Prop} (h : W dst) :
    Within (fun _ => True) W (bodyS l J1 J2 na skip xa dst) := by
  have hw : ∀ p : Thr α α, Within (fun _ => True) W p → Within (fun _ => True) W (l.foldl (fun (p : Thr α α) e => do
        let t ← p
        let (j0, j1, j2, a) := cut J1 J2 na e.1
        if skip j0 j1 j2 then pure t else do
          let u ← Thr.rd (xa j0 j1 j2 a)
          pure (t + u * e.2)) p) := by
    induction l with
    | nil => exact fun p hp => hp
    | cons e l ih =>
      intro p hp
      refine ih _ (hp.bind fun t => ?_)
      dsimp only
      split
      · exact Within.ret _
      · exact (Within.rd (.inl trivial)).bind fun _ => Within.ret _
  exact (hw _ (Within.ret _)).bind fun t => Within.inc h

/-- Without the further axis the output channels other than the first are never written. -/
theorem C432_channels_fails [AddCommMonoid α] [Mul α] (r x : RV4) (rows : Nat → List (Nat × α)) (J0 J1 J2 : Nat) (m m' : Buf α) (ls : List (Launch α)) (hls : sparse3D4 r x r.n3 rows J0 J1 J2 = .ok ls)
    (inj : ∀ q q', r.dom q → r.dom q' → r.cell q = r.cell q' → q = q') (ho : Gpu.Out ls m (.ok m')) (q : Nat × Nat × Nat × Nat) (hq : r.dom q) (hc : 0 < q.2.2.2) : m' (r.cell q) = m (r.cell q) := by
  rw [sparse3D4, decide_eq_true rfl] at hls
  cases hls
  refine out_frame (fun p => p ≠ r.cell q) _ (fun l hl t ht => ?_) m m' ho _ fun h => h rfl
  rw [List.mem_singleton] at hl
  subst hl
  obtain ⟨⟨bx, by', bz⟩, ⟨tx, ty, tz⟩⟩ := t
  obtain ⟨⟨a1, a2, a3⟩, a4, a5, a6⟩ := mem_ids'.1 ht
  obtain ⟨t0, t1, t2, t3⟩ := triple_inv a1
  dsimp only at a1 a2 a3 a4 a5 a6 ⊢
  rw [s3D4]
  dsimp only
  refine bodyS_within (α := α) _ _ _ _ _ _ _ ?_
  intro e
  have hy : by' = 0 := by omega
  subst hy
  have := inj (bx / (r.n1 * r.n2), bx / r.n2 - bx / (r.n1 * r.n2) * r.n1, bx % r.n2, 0) q ⟨t0, t1, t2, by dsimp only; omega⟩ hq (by rw [← e, RV4.cell]; ring)
  rw [← this] at hc
  exact absurd hc (by simp)

example : ∃ ls : List (Launch Int), sparse3D4 ⟨0, 1, 1, 1, 2, 2, 2, 2, 1⟩ ⟨2, 1, 1, 1, 1, 1, 1, 1, 1⟩ 2 (fun _ => [(0, 1)]) 1 1 1 = .ok ls ∧ ls.length = 1 := ⟨_, rfl, rfl⟩

/-- With padding the input is read at the position of the output plus that of the filter, without the padding taken off: in this case (three positions, a filter with the one entry 1 at its first
of three positions, padding 1) the entry at 0 should stay as it is, as the filter meets no input there, but it gains the first input. -/
theorem C433_padded_fails (m : Buf Int) (h : ∀ p, p < 6 → m p = some ((p : Int) + 1)) :
    ∃ ls, sparse3D5 ⟨0, 1, 1, 3, 1, 1, 3, 3, 1, 1, 1⟩ ⟨3, 1, 1, 3, 1, 1, 3, 3, 1, 1, 1⟩ 1 (fun _ => [(0, (1 : Int))]) 1 1 3 = .ok ls ∧
      Ends ls m fun m' => m' 0 = some 5 ∧ m' 1 = some 7 ∧ m' 2 = some 9 := by
  refine ⟨_, rfl, ?_⟩
  have key := sparse5_core (α := Int) ⟨0, 1, 1, 3, 1, 1, 3, 3, 1, 1, 1⟩ ⟨3, 1, 1, 3, 1, 1, 3, 3, 1, 1, 1⟩ (fun _ => [((0, 0, 0, 0), 1)]) 1 3 (skipS 1 1 3 0 0 1) m
    (fun q => q.2.2.1 + 1) (fun q => q.2.2.1 + 4) (by decide) (by decide) (by decide) rfl (fun c _ e he => by simp only [List.mem_singleton] at he; subst he; decide)
    (fun i0 i1 i2 c b0 b1 b2 b3 e he _ => by simp only [List.mem_singleton] at he; subst he; simp only at *; omega) ⟨?_, ?_⟩ ⟨?_, ?_⟩
  · refine key.imp fun m' hu => ?_
    refine ⟨(hu.1 (0, 0, 0, 0, 0) (by simp [RV5.dom])).trans ?_, (hu.1 (0, 0, 1, 0, 0) (by simp [RV5.dom])).trans ?_, (hu.1 (0, 0, 2, 0, 0) (by simp [RV5.dom])).trans ?_⟩ <;> rfl
  · rintro ⟨i0, i1, i2, i3, i4⟩ ⟨j0, j1, j2, j3, j4⟩ hi hj e
    simp only [RV5.dom, RV5.cell, Prod.mk.injEq] at *
    omega
  · rintro ⟨i0, i1, i2, i3, i4⟩ hi
    simp only [RV5.dom, RV5.cell] at *
    rw [h _ (by omega)]
    congr 1
    push_cast
    omega
  · rintro ⟨i0, i1, i2, i3, i4⟩ ⟨j0, j1, j2, j3, j4⟩ hi hj
    simp only [RV5.dom, RV5.cell] at *
    omega
  · rintro ⟨i0, i1, i2, i3, i4⟩ hi
    simp only [RV5.dom, RV5.cell] at *
    rw [h _ (by omega)]
    congr 1
    push_cast
    omega

/-- Half of an odd number is rounded down, and with padding 0 the filter is not stopped at the end: an output of the size of the input and a filter of two positions (they differ by one) read
beyond the input. -/
theorem C430_overrun_fails (m : Buf Int) (h : ∀ p, p < 6 → m p = some (p : Int)) (hn : m 6 = none) :
    ∃ ls, conv2D4 ⟨0, 1, 2, 1, 1, 2, 1, 1, 1⟩ ⟨4, 1, 2, 1, 1, 2, 1, 1, 1⟩ ⟨2, 1, 1, 2, 1, 2, 2, 1, 1⟩ = .ok ls ∧ Gpu.Out ls m .ub := by
  refine ⟨_, rfl, .bad rfl [1, 1, 1] ?_⟩
  have hs : ∀ l : Launch Int, l.blocks = ⟨1, 2, 1⟩ → l.threads = ⟨1, 1, 1⟩ → l.start = [l.kern ⟨0, 0, 0⟩ ⟨0, 0, 0⟩, l.kern ⟨0, 1, 0⟩ ⟨0, 0, 0⟩] := by
    rintro ⟨_, _, k⟩ rfl rfl
    rfl
  rw [hs _ rfl rfl]
  have e5 : m 5 = some 5 := h 5 (by decide)
  have e2 : m 2 = some 2 := h 2 (by decide)
  simp [exec, step, padOf, c2D4, body2, Thr.loopI, Thr.loop, mulAdd, Thr.rdI, Thr.rd, bind, Thr.bind, Res.bind, e5, e2, hn, pure]

example : ∃ m : Buf Int, (∀ p, p < 6 → m p = some (p : Int)) ∧ m 6 = none := ⟨fun p => if p < 6 then some (p : Int) else none, fun p hp => if_pos hp, rfl⟩

/-- `RtensorConvolve3d` puts the channels of the output and the further axis in one block: with more than 1024 of them the code only prints, and the output is not touched. -/
theorem C430_large_fails [AddCommMonoid α] [Mul α] (r x : RV5) (w : RV5) (r' x' : RV6) (h : 1024 < r.n3 * r.n4) (h' : 1024 < r'.n4 * r'.n5) (m m' : Buf α) (ls : List (Launch α))
    (hls : conv3D5 r x w = .ok ls ∨ conv3D6 r' x' w = .ok ls) (ho : Gpu.Out ls m (.ok m')) : m' = m := by
  have : ls = [] := by
    rcases hls with hls | hls
    · simp only [conv3D5, if_neg (Nat.not_le.2 h)] at hls
      obtain ⟨_, _, hls⟩ := Res.bind_eq_ok.1 hls
      obtain ⟨_, _, hls⟩ := Res.bind_eq_ok.1 hls
      obtain ⟨_, _, hls⟩ := Res.bind_eq_ok.1 hls
      cases hls
      rfl
    · simp only [conv3D6, if_neg (Nat.not_le.2 h')] at hls
      obtain ⟨_, _, hls⟩ := Res.bind_eq_ok.1 hls
      obtain ⟨_, _, hls⟩ := Res.bind_eq_ok.1 hls
      obtain ⟨_, _, hls⟩ := Res.bind_eq_ok.1 hls
      obtain ⟨_, _, hls⟩ := Res.bind_eq_ok.1 hls
      cases hls
      rfl
  subst this
  cases ho
  rfl

example : ∃ ls : List (Launch Int), conv3D5 ⟨0, 1, 1, 1, 33, 32, 1056, 1056, 1056, 32, 1⟩ ⟨1056, 1, 1, 1, 1, 32, 32, 32, 32, 32, 1⟩ ⟨1088, 33, 1, 1, 1, 1, 1, 1, 1, 1, 1⟩ = .ok ls := ⟨_, rfl⟩

end Cnine
