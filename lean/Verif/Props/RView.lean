import Verif.Lemmas.RView
import Mathlib.Algebra.Ring.Defs
import Mathlib.Algebra.BigOperators.Group.List.Basic
import Mathlib.Tactic.Ring

/-!
# Strided vector and matrix views

Specification vocabulary: `Has m X` says what a view shows in memory `m`; `Becomes m m' X` says the
view shows `X` in `m'` and every cell outside it is as in `m`.
-/

namespace Cnine

variable {α : Type _}

namespace RV1

/-- The view shows the vector `X`. -/
def Has (v : RV1) (m : Buf α) (X : Nat → α) : Prop := ∀ i, i < v.n0 → m (v.cell i) = some (X i)

/-- Different positions are different cells. -/
def Inj (v : RV1) : Prop := ∀ i, i < v.n0 → ∀ j, j < v.n0 → v.cell i = v.cell j → i = j

/-- No common cell. -/
def Apart (r x : RV1) : Prop := ∀ i, i < r.n0 → ∀ j, j < x.n0 → r.cell i ≠ x.cell j

/-- Common cells only at equal positions. -/
def Compat (r x : RV1) : Prop := ∀ i, i < r.n0 → ∀ j, j < x.n0 → r.cell i = x.cell j → i = j

/-- The view shows `X` afterwards and nothing else changed. -/
def Becomes (v : RV1) (m m' : Buf α) (X : Nat → α) : Prop :=
  v.Has m' X ∧ ∀ c, (∀ i, i < v.n0 → c ≠ v.cell i) → m' c = m c

theorem Apart.compat {r x : RV1} (h : r.Apart x) : r.Compat x := fun i hi j hj e => absurd e (h i hi j hj)

theorem cell_comm (v : RV1) (i : Nat) : v.arr + i * v.s0 = v.cell i := by rw [cell, Nat.mul_comm]

theorem inj_of_stride {v : RV1} (h : 0 < v.s0) : v.Inj := by
  intro i _ j _ e
  simp only [cell] at e
  exact Nat.eq_of_mul_eq_mul_left h (by omega)

end RV1

namespace RV2

/-- The view shows the matrix `X`. -/
def Has (v : RV2) (m : Buf α) (X : Nat → Nat → α) : Prop :=
  ∀ i, i < v.n0 → ∀ j, j < v.n1 → m (v.cell i j) = some (X i j)

/-- Different positions are different cells. -/
def Inj (v : RV2) : Prop := ∀ i, i < v.n0 → ∀ j, j < v.n1 → ∀ k, k < v.n0 → ∀ l, l < v.n1 →
  v.cell i j = v.cell k l → i = k ∧ j = l

/-- No common cell. -/
def Apart (r x : RV2) : Prop := ∀ i, i < r.n0 → ∀ j, j < r.n1 → ∀ k, k < x.n0 → ∀ l, l < x.n1 →
  r.cell i j ≠ x.cell k l

/-- Common cells only at equal positions. -/
def Compat (r x : RV2) : Prop := ∀ i, i < r.n0 → ∀ j, j < r.n1 → ∀ k, k < x.n0 → ∀ l, l < x.n1 →
  r.cell i j = x.cell k l → i = k ∧ j = l

/-- No common cell with a vector view. -/
def Apart1 (r : RV2) (x : RV1) : Prop := ∀ i, i < r.n0 → ∀ j, j < r.n1 → ∀ k, k < x.n0 → r.cell i j ≠ x.cell k

/-- The view shows `X` afterwards and nothing else changed. -/
def Becomes (v : RV2) (m m' : Buf α) (X : Nat → Nat → α) : Prop :=
  v.Has m' X ∧ ∀ c, (∀ i, i < v.n0 → ∀ j, j < v.n1 → c ≠ v.cell i j) → m' c = m c

end RV2

/-! ## C130: vector views -/

theorem C130_assign (r x : RV1) (hn : r.n0 = x.n0) (hr : r.Inj) (hx : r.Compat x) (m : Buf α) (R X : Nat → α)
    (hR : r.Has m R) (hX : x.Has m X) : ∃ m', r.assign x m = .ok m' ∧ r.Becomes m m' X := by
  obtain ⟨m', h1, h2⟩ := loop_cells r.n0 r.cell X (fun i m => do
      let v ← m.read (x.cell i)
      m.write (r.arr + i * r.s0) v) m hr (fun i hi => by rw [hR i hi]; rfl) (by
    intro i hi m' hm'
    have : m' (x.cell i) = some (X i) := by
      rw [hm' _ fun j hj hji e => hji (hx j hj i (hn ▸ hi) e.symm)]; exact hX i (hn ▸ hi)
    rw [read_ok this, Res.ok_bind, RV1.cell, Nat.mul_comm])
  exact ⟨m', by simpa [RV1.assign, hn] using (hn ▸ h1), h2⟩

theorem C130_set (r x : RV1) (hn : r.n0 = x.n0) (hr : r.Inj) (hx : r.Apart x) (m : Buf α) (R X : Nat → α)
    (hR : r.Has m R) (hX : x.Has m X) : ∃ m', r.set x m = .ok m' ∧ r.Becomes m m' X := by
  obtain ⟨ra, n, rs⟩ := r
  obtain ⟨xa, n', xs⟩ := x
  obtain rfl : n = n' := hn
  simp only [RV1.set, RV1.isRegular, Bool.and_eq_true, decide_eq_true_eq]
  simp only [RV1.Becomes, RV1.Has, RV1.Inj, RV1.Apart, RV1.cell] at *
  by_cases h : rs = 1 ∧ xs = 1
  · obtain ⟨rfl, rfl⟩ := h
    simp only [Nat.one_mul] at *
    obtain ⟨m', h1, h2⟩ := stdCopy_ok m xa n ra X (fun i hi => by rw [hR i hi]; rfl) hX hx
    exact ⟨m', by simp [h1], h2⟩
  · obtain ⟨m', h1, h2⟩ := loop_cells n (fun i => ra + rs * i) X (fun i m => do
        let v ← m.read (xa + xs * i)
        m.write (ra + rs * i) v) m hr (fun i hi => by rw [hR i hi]; rfl) (by
      intro i hi m' hm'
      have : m' (xa + xs * i) = some (X i) := by
        rw [hm' _ fun j hj hji e => hx j hj i hi e.symm]; exact hX i hi
      rw [read_ok this, Res.ok_bind])
    exact ⟨m', by simp [h, h1], h2⟩

theorem C130_fill (r : RV1) (v : α) (hr : r.Inj) (m : Buf α) (R : Nat → α)
    (hR : r.Has m R) : ∃ m', r.fill v m = .ok m' ∧ r.Becomes m m' fun _ => v := by
  obtain ⟨m', h1, h2⟩ := loop_cells r.n0 r.cell (fun _ => v) (fun i m => m.write (r.arr + i * r.s0) v) m hr
    (fun i hi => by rw [hR i hi]; rfl) (by intro i hi m' hm'; rw [RV1.cell, Nat.mul_comm])
  exact ⟨m', h1, h2⟩

theorem C130_broadcast (r : RV1) (v : α) (hs : r.s0 = 1) (m : Buf α) (R : Nat → α)
    (hR : r.Has m R) : ∃ m', r.broadcast v m = .ok m' ∧ r.Becomes m m' fun _ => v := by
  obtain ⟨m', h1, h2⟩ := loop_cells r.n0 r.cell (fun _ => v) (fun i m => m.write (r.arr + i) v) m
    (RV1.inj_of_stride (by omega)) (fun i hi => by rw [hR i hi]; rfl)
    (by intro i hi m' hm'; rw [RV1.cell, hs, Nat.one_mul])
  exact ⟨m', by simp [RV1.broadcast, RV1.isRegular, hs, h1], h2⟩

/-- A strided view cannot be `broadcast` into. -/
theorem C130_broadcast_refuses (r : RV1) (v : α) (hs : r.s0 ≠ 1) (m : Buf α) : r.broadcast v m = .throw := by
  simp [RV1.broadcast, RV1.isRegular, hs]

theorem C130_addConst [Add α] (r : RV1) (v : α) (hr : r.Inj) (m : Buf α) (R : Nat → α)
    (hR : r.Has m R) : ∃ m', r.addConst v m = .ok m' ∧ r.Becomes m m' fun i => R i + v := by
  obtain ⟨m', h1, h2⟩ := loop_cells r.n0 r.cell (fun i => R i + v) (fun i m => incCell m (r.arr + i * r.s0) v) m hr
    (fun i hi => by rw [hR i hi]; rfl) (by
    intro i hi m' hm'
    have e : m' (r.cell i) = some (R i) := by
      rw [hm' _ fun j hj hji e => hji (hr j hj i hi e.symm)]; exact hR i hi
    rw [Nat.mul_comm i, ← RV1.cell, incCell_ok e])
  exact ⟨m', h1, h2⟩

theorem C130_add [Add α] (r x : RV1) (hn : r.n0 = x.n0) (hr : r.Inj) (hx : r.Compat x) (m : Buf α) (R X : Nat → α)
    (hR : r.Has m R) (hX : x.Has m X) : ∃ m', r.add x m = .ok m' ∧ r.Becomes m m' fun i => R i + X i := by
  obtain ⟨ra, n, rs⟩ := r
  obtain ⟨xa, n', xs⟩ := x
  obtain rfl : n = n' := hn
  simp only [RV1.add, RV1.isRegular, Bool.and_eq_true, decide_eq_true_eq]
  simp only [RV1.Becomes, RV1.Has, RV1.Inj, RV1.Compat, RV1.cell] at *
  by_cases h : rs = 1 ∧ xs = 1
  · obtain ⟨rfl, rfl⟩ := h
    simp only [Nat.one_mul] at *
    obtain ⟨m', h1, h2⟩ := stdAdd_ok (· + ·) m xa n ra R X hR hX hx
    exact ⟨m', by simp [h1], h2⟩
  · obtain ⟨m', h1, h2⟩ := loop_cells n (fun i => ra + rs * i) (fun i => R i + X i) (fun i m => do
        let v ← m.read (xa + xs * i)
        incCell m (ra + rs * i) v) m hr (fun i hi => by rw [hR i hi]; rfl) (by
      intro i hi m' hm'
      have e1 : m' (xa + xs * i) = some (X i) := by
        rw [hm' _ fun j hj hji e => hji (hx j hj i hi e.symm)]; exact hX i hi
      have e2 : m' (ra + rs * i) = some (R i) := by
        rw [hm' _ fun j hj hji e => hji (hr j hj i hi e.symm)]; exact hR i hi
      rw [read_ok e1, Res.ok_bind, incCell_ok e2])
    exact ⟨m', by simp [h, h1], h2⟩

theorem C130_addScaled [Add α] [Mul α] (r x : RV1) (c : α) (hn : r.n0 = x.n0) (hr : r.Inj) (hx : r.Compat x)
    (m : Buf α) (R X : Nat → α) (hR : r.Has m R) (hX : x.Has m X) :
    ∃ m', r.addScaled x c m = .ok m' ∧ r.Becomes m m' fun i => R i + c * X i := by
  obtain ⟨ra, n, rs⟩ := r
  obtain ⟨xa, n', xs⟩ := x
  obtain rfl : n = n' := hn
  simp only [RV1.addScaled, RV1.isRegular, Bool.and_eq_true, decide_eq_true_eq]
  simp only [RV1.Becomes, RV1.Has, RV1.Inj, RV1.Compat, RV1.cell] at *
  by_cases h : rs = 1 ∧ xs = 1
  · obtain ⟨rfl, rfl⟩ := h
    simp only [Nat.one_mul] at *
    obtain ⟨m', h1, h2⟩ := stdAdd_ok (fun a b => a + c * b) m xa n ra R X hR hX hx
    exact ⟨m', by simpa [stdAdd] using h1, h2⟩
  · obtain ⟨m', h1, h2⟩ := loop_cells n (fun i => ra + rs * i) (fun i => R i + c * X i) (fun i m => do
        let v ← m.read (xa + xs * i)
        incCell m (ra + rs * i) (c * v)) m hr (fun i hi => by rw [hR i hi]; rfl) (by
      intro i hi m' hm'
      have e1 : m' (xa + xs * i) = some (X i) := by
        rw [hm' _ fun j hj hji e => hji (hx j hj i hi e.symm)]; exact hX i hi
      have e2 : m' (ra + rs * i) = some (R i) := by
        rw [hm' _ fun j hj hji e => hji (hr j hj i hi e.symm)]; exact hR i hi
      rw [read_ok e1, Res.ok_bind, incCell_ok e2])
    exact ⟨m', by simp [h, h1], h2⟩

theorem C130_sum [AddCommMonoid α] (v : RV1) (m : Buf α) (X : Nat → α) (hX : v.Has m X) :
    v.sum m = .ok (((List.range v.n0).map X).sum) := by
  have := sumLoop_ok v.n0 v.cell m X hX
  simpa [RV2.sumLoop, RV1.sum, RV1.cell, Nat.mul_comm] using this

/-- A vector of another length is refused by all of them. -/
theorem C130_refuses [Add α] [Mul α] (r x : RV1) (c : α) (hn : x.n0 ≠ r.n0) (m : Buf α) :
    r.assign x m = .throw ∧ r.set x m = .throw ∧ r.add x m = .throw ∧ r.addScaled x c m = .throw := by
  simp [RV1.assign, RV1.set, RV1.add, RV1.addScaled, hn, hn.symm]

/-- Blocks of a vector view show the entries from `i0` on. -/
theorem C130_block (v : RV1) (i0 m0 k : Nat) : (v.block i0 m0).cell k = v.cell (i0 + k) ∧ (v.block i0 m0).n0 = m0 := by
  refine ⟨?_, rfl⟩
  simp only [RV1.block, RV1.cell]; ring

/-- `add_ReLU_back(g,x,α)` adds `g_i` where `x_i>0` and `α·g_i` elsewhere. -/
theorem C130_reluBack [Ring α] (pos : α → Bool) (r g x : RV1) (alpha : α) (hg : r.n0 = g.n0) (hn : r.n0 = x.n0)
    (hr : r.Inj) (hcg : r.Compat g) (hx : r.Compat x) (m : Buf α) (R G X : Nat → α) (hR : r.Has m R)
    (hG : g.Has m G) (hX : x.Has m X) :
    ∃ m', r.addReLUback pos g x alpha m = .ok m' ∧
      r.Becomes m m' fun i => R i + if pos (X i) then G i else alpha * G i := by
  obtain ⟨m', h1, h2⟩ := loop_cells r.n0 r.cell (fun i => R i + if pos (X i) then G i else alpha * G i)
    (fun i m => do
      let s ← m.read (x.arr + i * x.s0)
      let v ← m.read (g.arr + i * g.s0)
      incCell m (r.arr + i * r.s0) (((if pos s then 1 else 0) * (1 - alpha) + alpha) * v)) m hr
    (fun i hi => by rw [hR i hi]; rfl) (by
    intro i hi m' hm'
    have e1 : m' (x.cell i) = some (X i) := by
      rw [hm' _ fun j hj hji e => hji (hx j hj i (hn ▸ hi) e.symm)]; exact hX i (hn ▸ hi)
    have e2 : m' (g.cell i) = some (G i) := by
      rw [hm' _ fun j hj hji e => hji (hcg j hj i (hg ▸ hi) e.symm)]; exact hG i (hg ▸ hi)
    have e3 : m' (r.cell i) = some (R i) := by
      rw [hm' _ fun j hj hji e => hji (hr j hj i hi e.symm)]; exact hR i hi
    simp only [RV1.cell_comm]
    rw [read_ok e1, Res.ok_bind, read_ok e2, Res.ok_bind, incCell_ok e3]
    congr 2
    split <;> simp)
  exact ⟨m', by simpa [RV1.addReLUback, ← hg, ← hn] using h1, h2⟩

example : ∃ m', (RV1.mk 0 3 2).add ⟨1, 3, 2⟩ (Buf.ofList [1, 10, 2, 20, 3, 30]) = .ok m' ∧
    m' 4 = some (33 : Int) ∧ m' 5 = some 30 := by
  obtain ⟨m', h1, h2, h3⟩ := C130_add (RV1.mk 0 3 2) ⟨1, 3, 2⟩ rfl (RV1.inj_of_stride (by decide))
    (by intro i _ j _ e; simp [RV1.cell] at e; omega) (Buf.ofList [1, 10, 2, 20, 3, 30])
    (fun i => [(1 : Int), 2, 3].getD i 0) (fun i => [(10 : Int), 20, 30].getD i 0)
    (by intro i hi; have : i < 3 := hi; interval_cases i <;> rfl)
    (by intro i hi; have : i < 3 := hi; interval_cases i <;> rfl)
  refine ⟨m', h1, h2 2 (by decide), ?_⟩
  rw [h3 5 (by intro i hi; simp [RV1.cell]; omega)]; rfl

example : (RV1.mk 1 3 2).sum (Buf.ofList [(1 : Int), 10, 2, 20, 3, 30]) = .ok 60 := by decide

/-! ## C131: ReLU on vector views -/

/-- Missing: differing strides, see `C131_relu_fails`. -/
theorem C131_relu_partial [Ring α] (pos : α → Bool) (r x : RV1) (alpha : α) (hn : r.n0 = x.n0) (hs : r.s0 = x.s0)
    (hr : r.Inj) (hx : r.Compat x) (m : Buf α) (R X : Nat → α) (hR : r.Has m R) (hX : x.Has m X) :
    ∃ m', r.addReLU pos x alpha m = .ok m' ∧
      r.Becomes m m' fun i => R i + if pos (X i) then X i else alpha * X i := by
  obtain ⟨m', h1, h2⟩ := C130_reluBack pos r x x alpha hn hn hr hx hx m R X X hR hX hX
  refine ⟨m', ?_, h2⟩
  rw [← h1]
  simp [RV1.addReLU, RV1.addReLUback, hs, hn]

/-- The full statement fails: with source stride 2 and target stride 1 the target gains a cell that does
not belong to the source at all. -/
theorem C131_relu_fails : ∃ (r x : RV1) (m m' : Buf Int) (R X : Nat → Int), r.n0 = x.n0 ∧ r.Inj ∧ r.Apart x ∧
    r.Has m R ∧ x.Has m X ∧ r.addReLU (fun v => decide (0 < v)) x 0 m = .ok m' ∧
    m' (r.cell 1) ≠ some (R 1 + if 0 < X 1 then X 1 else 0) := by
  refine ⟨⟨0, 2, 1⟩, ⟨2, 2, 2⟩, Buf.ofList [0, 0, 5, 100, 7], _, fun _ => 0, fun i => [5, 7].getD i 0, rfl,
    RV1.inj_of_stride (by decide), ?_, ?_, ?_, rfl, ?_⟩
  · intro i hi j hj; simp [RV1.cell] at *; omega
  · intro i hi; have : i < 2 := hi; interval_cases i <;> rfl
  · intro i hi; have : i < 2 := hi; interval_cases i <;> rfl
  · decide

/-- And it can read outside the source. -/
theorem C131_relu_ub_fails : ∃ (r x : RV1) (m : Buf Int) (R X : Nat → Int), r.n0 = x.n0 ∧ r.Inj ∧ r.Apart x ∧
    r.Has m R ∧ x.Has m X ∧ r.addReLU (fun v => decide (0 < v)) x 0 m = .ub := by
  refine ⟨⟨0, 2, 2⟩, ⟨3, 2, 1⟩, Buf.ofList [0, 0, 0, 5, 7], fun _ => 0, fun i => [5, 7].getD i 0, rfl,
    RV1.inj_of_stride (by decide), ?_, ?_, ?_, rfl⟩
  · intro i hi j hj; simp [RV1.cell] at *; omega
  · intro i hi; have : i < 2 := hi; interval_cases i <;> rfl
  · intro i hi; have : i < 2 := hi; interval_cases i <;> rfl

example : ∃ m', (RV1.mk 0 2 1).addReLU (fun v : Int => decide (0 < v)) ⟨2, 2, 1⟩ 3 (Buf.ofList [1, 1, 5, -7]) = .ok m' ∧
    m' 0 = some 6 ∧ m' 1 = some (-20) := ⟨_, rfl, rfl, rfl⟩

/-! ## C132: `tensor1_view::add` -/

/-- Missing: strided views, see `C132_strided_fails`. -/
theorem C132_tadd_partial [Add α] (r x : RV1) (hn : r.n0 = x.n0) (hr : r.s0 = 1) (hs : x.s0 = 1) (hx : r.Compat x)
    (m : Buf α) (R X : Nat → α) (hR : r.Has m R) (hX : x.Has m X) :
    ∃ m', r.tAdd x m = .ok m' ∧ r.Becomes m m' fun i => R i + X i := by
  obtain ⟨m', h1, h2⟩ := C130_add r x hn (RV1.inj_of_stride (by omega)) hx m R X hR hX
  refine ⟨m', ?_, h2⟩
  rw [← h1]
  simp [RV1.tAdd, RV1.add, RV1.isRegular, hr, hs]

/-- On views with any stride other than one the target is overwritten by the summand: its former
contents are lost. -/
theorem C132_strided_overwrites [Add α] (r x : RV1) (hn : r.n0 = x.n0) (hr : r.Inj) (hs : ¬ (r.s0 = 1 ∧ x.s0 = 1))
    (hx : r.Compat x) (m : Buf α) (R X : Nat → α) (hR : r.Has m R) (hX : x.Has m X) :
    ∃ m', r.tAdd x m = .ok m' ∧ r.Becomes m m' X := by
  obtain ⟨m', h1, h2⟩ := C130_assign r x hn hr hx m R X hR hX
  refine ⟨m', ?_, h2⟩
  rw [← h1]
  simp only [RV1.tAdd, RV1.assign, RV1.isRegular, Bool.and_eq_true, decide_eq_true_eq, if_neg hs, hn, RV1.cell,
    Nat.mul_comm r.s0]

theorem C132_strided_fails : ∃ (r x : RV1) (m m' : Buf Int) (R X : Nat → Int), r.n0 = x.n0 ∧ r.Inj ∧ r.Apart x ∧
    r.Has m R ∧ x.Has m X ∧ r.tAdd x m = .ok m' ∧ m' (r.cell 0) ≠ some (R 0 + X 0) := by
  refine ⟨⟨0, 2, 2⟩, ⟨1, 2, 2⟩, Buf.ofList [1, 10, 2, 20], _, fun i => [1, 2].getD i 0, fun i => [10, 20].getD i 0, rfl,
    RV1.inj_of_stride (by decide), ?_, ?_, ?_, rfl, ?_⟩
  · intro i hi j hj; simp [RV1.cell] at *; omega
  · intro i hi; have : i < 2 := hi; interval_cases i <;> rfl
  · intro i hi; have : i < 2 := hi; interval_cases i <;> rfl
  · decide

end Cnine
