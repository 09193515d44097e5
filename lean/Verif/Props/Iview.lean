import Verif.Model.Iview
import Verif.Props.RView2
import Verif.Lemmas.RtensorA

/-! # Properties of matrix views of integers (tensor_views/Itensor2_view.hpp) -/

namespace Cnine

namespace IV2

open RV2

/-- The numbers an `int` can hold. -/
def Fits (x : Int) : Prop := -2147483648 ≤ x ∧ x ≤ 2147483647

theorem fit_ok {x : Int} (h : Fits x) : fit x = .ok x := if_pos h

theorem bump_ok {m : Buf Int} {c : Nat} {a t : Int} (h : m c = some a) (hf : Fits (a + t)) : bump m c t = m.write c (a + t) := by
  unfold bump
  rw [read_ok h, Res.ok_bind, fit_ok hf, Res.ok_bind]

/-! ### C629: copying a matrix -/

theorem setLoops_eq {r x : IV2} (hr : r.dev = 0) (hx : x.dev = 0) (m : Buf Int) :
    r.setLoops x m = loop x.v.n0 m fun i m => loop x.v.n1 m fun j m => (do
      let t ← m.read (x.v.cell i j)
      m.write (r.v.cell i j) t) := by
  simp only [setLoops, get, setCell, hr, hx, if_true]

/-- C629 (on the host, or both matrices regular): the target holds the source, nothing else changes. -/
theorem C629_set_partial (r x : IV2) (hd : r.dev = x.dev) (h : x.dev = 0 ∨ x.dev = 1 ∧ r.v.isRegular = true ∧ x.v.isRegular = true)
    (h0 : r.v.n0 = x.v.n0) (h1 : r.v.n1 = x.v.n1) (hr : r.v.Inj) (hx : r.v.Apart x.v) (m : Buf Int) (R X : Nat → Nat → Int)
    (hR : r.v.Has m R) (hX : x.v.Has m X) : ∃ m', r.set x m = .ok m' ∧ r.v.Becomes m m' X := by
  obtain ⟨m', e, b⟩ := C133_set r.v x.v h0 h1 hr hx m R X hR hX
  refine ⟨m', ?_, b⟩
  rw [← e]
  unfold set RV2.set
  congr 1; funext _
  congr 1; funext _
  by_cases hreg : (r.v.isRegular && x.v.isRegular) = true
  · rw [if_pos hreg, if_pos hreg]
    unfold setFast
    rw [if_pos (by rcases h with h | h <;> omega), if_pos hd.symm]
  · rw [if_neg hreg, if_neg hreg]
    rcases h with h | h
    · exact setLoops_eq (hd.trans h) h m
    · exact absurd (by simp [h.2.1, h.2.2]) hreg

/-- C629: on the GPU, unless both matrices are regular, nothing at all is copied and nothing is reported. -/
theorem C629_set_fails (r x : IV2) (hd : r.dev = 1) (h : r.v.isRegular = false ∨ x.v.isRegular = false) (h0 : r.v.n0 = x.v.n0)
    (h1 : r.v.n1 = x.v.n1) (m : Buf Int) : r.set x m = .ok m := by
  have hreg : ¬ (r.v.isRegular && x.v.isRegular) = true := by rcases h with h | h <;> simp [h]
  unfold set
  rw [decide_eq_true h0.symm, decide_eq_true h1.symm]
  show (if (r.v.isRegular && x.v.isRegular) = true then r.setFast x m else r.setLoops x m) = _
  rw [if_neg hreg]
  unfold setLoops
  rw [if_neg (by omega)]

/-- C629: a matrix on the host set from one on the GPU, unless both are regular, is filled with zeros and nothing is reported. -/
theorem C629_mixed_fails (r x : IV2) (hr0 : r.dev = 0) (hx0 : x.dev ≠ 0) (h : r.v.isRegular = false ∨ x.v.isRegular = false)
    (h0 : r.v.n0 = x.v.n0) (h1 : r.v.n1 = x.v.n1) (hr : r.v.Inj) (m : Buf Int) (R : Nat → Nat → Int) (hR : r.v.Has m R) :
    ∃ m', r.set x m = .ok m' ∧ r.v.Becomes m m' fun _ _ => 0 := by
  have hreg : ¬ (r.v.isRegular && x.v.isRegular) = true := by rcases h with h | h <;> simp [h]
  obtain ⟨m', g1, g2⟩ := loop2_cells r.v.n0 r.v.n1 r.v.cell (fun _ _ => (0 : Int)) (fun i j m => do
      let t ← x.get i j m
      r.setCell i j t m) m hr (fun i hi j hj => by rw [hR i hi j hj]; rfl) (by
    intro i hi j hj m1 hm
    simp only [get, setCell, hr0, hx0, if_true, if_false, Res.ok_bind])
  refine ⟨m', ?_, g2⟩
  unfold set
  rw [decide_eq_true h0.symm, decide_eq_true h1.symm]
  show (if (r.v.isRegular && x.v.isRegular) = true then r.setFast x m else r.setLoops x m) = _
  rw [if_neg hreg]
  unfold setLoops
  rw [if_pos hr0, ← h0, ← h1]
  exact g1

example : ∃ m', set ⟨⟨0, 2, 2, 1, 2⟩, 0⟩ ⟨⟨0, 2, 2, 2, 1⟩, 1⟩ (Buf.ofList [1, 2, 3, 4]) = .ok m' ∧ m' 1 = some 0 := ⟨_, rfl, rfl⟩
example : ∃ m', set ⟨⟨0, 2, 2, 1, 2⟩, 0⟩ ⟨⟨4, 2, 2, 2, 1⟩, 0⟩ (Buf.ofList [1, 2, 3, 4, 10, 20, 30, 40]) = .ok m' ∧ m' 1 = some 30 :=
  ⟨_, rfl, rfl⟩
example (m : Buf Int) : set ⟨⟨0, 2, 2, 1, 2⟩, 1⟩ ⟨⟨4, 2, 2, 2, 1⟩, 1⟩ m = .ok m :=
  C629_set_fails ⟨⟨0, 2, 2, 1, 2⟩, 1⟩ ⟨⟨4, 2, 2, 2, 1⟩, 1⟩ rfl (Or.inl rfl) rfl rfl m

/-! ### C630: adding a matrix -/

theorem add_core (c : Int) (r x : IV2) (hr0 : r.dev = 0) (hx0 : x.dev = 0) (h0 : r.v.n0 = x.v.n0) (h1 : r.v.n1 = x.v.n1) (hr : r.v.Inj)
    (hx : r.v.Compat x.v) (m : Buf Int) (R X : Nat → Nat → Int) (hR : r.v.Has m R) (hX : x.v.Has m X)
    (hf : ∀ i, i < r.v.n0 → ∀ j, j < r.v.n1 → Fits (c * X i j) ∧ Fits (R i j + c * X i j)) :
    ∃ m', addHost r x c m = .ok m' ∧ r.v.Becomes m m' fun i j => R i j + c * X i j := by
  unfold addHost
  by_cases h : r.v.isRegular = true ∧ x.v.isRegular = true
  · rw [if_pos (by simp [h.1, h.2]), if_pos hx0]
    have hX' := (reg_has h.2 m X).1 hX
    have hR' := (reg_has h.1 m R).1 hR
    have hco := reg_compat h.1 h.2 h1 h0 hx
    have hs : r.v.s0 = r.v.n1 := (RV2.isRegular_iff.1 h.1).2
    obtain ⟨m', g1, g2, g3⟩ := loop_cells (r.v.n0 * r.v.n1) (fun k => r.v.arr + k)
      (fun k => R (k / r.v.n1) (k % r.v.n1) + c * X (k / r.v.n1) (k % r.v.n1)) (fun i m => do
        let b ← m.read (x.v.arr + i)
        let t ← fit (c * b)
        bump m (r.v.arr + i) t) m (fun i _ j _ e => by omega)
      (fun i hi => by rw [hR' i hi]; rfl) (by
        intro k hk m1 hm
        have e1 : m1 (r.v.arr + k) = some (R (k / r.v.n1) (k % r.v.n1)) := by
          rw [hm _ fun j hj hjk e => hjk (by omega)]; exact hR' k hk
        have e2 : m1 (x.v.arr + k) = some (X (k / r.v.n1) (k % r.v.n1)) := by
          rw [hm _ fun j hj hjk e => hjk (hco j hj k hk e.symm)]
          rw [hX' k (by rw [← h0, ← h1]; exact hk), h1]
        obtain ⟨f1, f2⟩ := hf _ (div_lt_of_flat hk) _ (mod_lt_of_flat hk)
        rw [read_ok e2, Res.ok_bind, fit_ok f1, Res.ok_bind, bump_ok e1 f2])
    refine ⟨m', ?_, (reg_has h.1 m' _).2 g2, (reg_frame h.1 m m').2 g3⟩
    unfold addRun
    rw [hs]; exact g1
  · rw [if_neg (by simpa using h)]
    obtain ⟨m', g1, g2⟩ := loop2_cells r.v.n0 r.v.n1 r.v.cell (fun i j => R i j + c * X i j) (fun i j m => do
        let b ← x.get i j m
        let t ← fit (c * b)
        r.inc i j t m) m hr (fun i hi j hj => by rw [hR i hi j hj]; rfl) (by
      intro i hi j hj m1 hm
      have e1 : m1 (r.v.cell i j) = some (R i j) := by
        rw [hm _ fun k hk l hl hkl e => hkl (hr k hk l hl i hi j hj e.symm)]; exact hR i hi j hj
      have e2 : m1 (x.v.cell i j) = some (X i j) := by
        rw [hm _ fun k hk l hl hkl e => hkl (hx k hk l hl i (h0 ▸ hi) j (h1 ▸ hj) e.symm)]
        exact hX i (h0 ▸ hi) j (h1 ▸ hj)
      obtain ⟨f1, f2⟩ := hf i hi j hj
      simp only [get, inc, hr0, hx0, if_true]
      rw [read_ok e2, Res.ok_bind, fit_ok f1, Res.ok_bind, bump_ok e1 f2])
    exact ⟨m', by unfold addLoops; rw [← h0, ← h1]; exact g1, g2⟩

/-- C630 (on the host, all sums fit into an `int`): `r += x`. -/
theorem C630_add_partial (r x : IV2) (hr0 : r.dev = 0) (hx0 : x.dev = 0) (h0 : r.v.n0 = x.v.n0) (h1 : r.v.n1 = x.v.n1) (hr : r.v.Inj)
    (hx : r.v.Compat x.v) (m : Buf Int) (R X : Nat → Nat → Int) (hR : r.v.Has m R) (hX : x.v.Has m X)
    (hf : ∀ i, i < r.v.n0 → ∀ j, j < r.v.n1 → Fits (X i j) ∧ Fits (R i j + X i j)) :
    ∃ m', r.add x m = .ok m' ∧ r.v.Becomes m m' fun i j => R i j + X i j := by
  obtain ⟨m', e, b⟩ := add_core 1 r x hr0 hx0 h0 h1 hr hx m R X hR hX (by simpa using hf)
  refine ⟨m', ?_, by simpa using b⟩
  unfold add
  rw [decide_eq_true h0.symm, decide_eq_true h1.symm]
  show (if r.dev = 0 then addHost r x 1 m else .ok m) = _
  rw [if_pos hr0]; exact e

/-- C630: on the GPU nothing is ever added and nothing is reported. -/
theorem C630_add_fails (r x : IV2) (hr : r.dev ≠ 0) (h0 : r.v.n0 = x.v.n0) (h1 : r.v.n1 = x.v.n1) (m : Buf Int) : r.add x m = .ok m := by
  unfold add
  rw [decide_eq_true h0.symm, decide_eq_true h1.symm]
  show (if r.dev = 0 then addHost r x 1 m else .ok m) = _
  rw [if_neg hr]

/-- C630 (on the host, all products and sums fit): `r += c x`. -/
theorem C630_scaled (r x : IV2) (hr0 : r.dev = 0) (hx0 : x.dev = 0) (h0 : r.v.n0 = x.v.n0) (h1 : r.v.n1 = x.v.n1) (hr : r.v.Inj)
    (hx : r.v.Compat x.v) (c : Int) (m : Buf Int) (R X : Nat → Nat → Int) (hR : r.v.Has m R) (hX : x.v.Has m X)
    (hf : ∀ i, i < r.v.n0 → ∀ j, j < r.v.n1 → Fits (c * X i j) ∧ Fits (R i j + c * X i j)) :
    ∃ m', r.addScaled x c m = .ok m' ∧ r.v.Becomes m m' fun i j => R i j + c * X i j := by
  obtain ⟨m', e, b⟩ := add_core c r x hr0 hx0 h0 h1 hr hx m R X hR hX hf
  refine ⟨m', ?_, b⟩
  unfold addScaled
  rw [decide_eq_true hr0, decide_eq_true h0.symm, decide_eq_true h1.symm]
  exact e

/-- C630: a sum that does not fit is undefined. -/
theorem C630_overflow_fails (m : Buf Int) (a b : Int) (ha : m 0 = some a) (hb : m 1 = some b) (hfb : Fits b) (h : ¬ Fits (a + b)) :
    add ⟨⟨0, 1, 1, 1, 1⟩, 0⟩ ⟨⟨1, 1, 1, 1, 1⟩, 0⟩ m = .ub := by
  have : loop 1 m (fun i m => do
      let b ← m.read (1 + i)
      let t ← fit (1 * b)
      bump m (0 + i) t) = .ub := by
    show (Res.bind (do
      let b ← m.read (1 + 0)
      let t ← fit (1 * b)
      bump m (0 + 0) t) _) = .ub
    rw [read_ok (show m (1 + 0) = some b from hb), Res.ok_bind, fit_ok (by simpa using hfb), Res.ok_bind]
    unfold bump
    rw [read_ok (show m (0 + 0) = some a from ha), Res.ok_bind]
    unfold fit
    rw [if_neg (by simpa [Fits] using h)]
    rfl
  simpa [add, addHost, addRun, RV2.isRegular, Res.assrt] using this

example : ∃ m', add ⟨⟨0, 2, 2, 1, 2⟩, 0⟩ ⟨⟨4, 2, 2, 2, 1⟩, 0⟩ (Buf.ofList [1, 2, 3, 4, 10, 20, 30, 40]) = .ok m' ∧ m' 1 = some 32 :=
  ⟨_, rfl, rfl⟩
example (m : Buf Int) : add ⟨⟨0, 2, 2, 2, 1⟩, 1⟩ ⟨⟨4, 2, 2, 2, 1⟩, 1⟩ m = .ok m := C630_add_fails _ _ (by decide) rfl rfl m
example : ∃ m', addScaled ⟨⟨0, 2, 2, 2, 1⟩, 0⟩ ⟨⟨4, 2, 2, 2, 1⟩, 0⟩ 3 (Buf.ofList [1, 2, 3, 4, 10, 20, 30, 40]) = .ok m' ∧
    m' 1 = some 62 := ⟨_, rfl, rfl⟩
example : add ⟨⟨0, 1, 1, 1, 1⟩, 0⟩ ⟨⟨1, 1, 1, 1, 1⟩, 0⟩ (Buf.ofList [2147483647, 1]) = .ub :=
  C630_overflow_fails _ 2147483647 1 rfl rfl (by unfold Fits; decide) (by unfold Fits; decide)

/-! ### C631: products -/

/-- The sum of the first `n` products. -/
def partSum (P : Nat → Int) (n : Nat) : Int := ((List.range n).map P).sum

theorem partSum_succ (P : Nat → Int) (n : Nat) : partSum P (n + 1) = partSum P n + P n := by
  simp [partSum, List.range_succ]

theorem dot_ok (x y : IV2) (hx : x.dev = 0) (hy : y.dev = 0) (a b : Nat) (m : Buf Int) (A B : Nat → Int) :
    ∀ n, (∀ i, i < n → m (x.v.cell a i) = some (A i)) → (∀ i, i < n → m (y.v.cell i b) = some (B i)) →
      (∀ i, i < n → Fits (A i * B i)) → (∀ i, i ≤ n → Fits (partSum (fun i => A i * B i) i)) →
      dot x y a b n m = .ok (partSum (fun i => A i * B i) n)
  | 0, _, _, _, _ => rfl
  | n + 1, hA, hB, hP, hS => by
    have ih := dot_ok x y hx hy a b m A B n (fun i hi => hA i (by omega)) (fun i hi => hB i (by omega)) (fun i hi => hP i (by omega))
      (fun i hi => hS i (by omega))
    unfold dot at ih ⊢
    rw [RA.loop_snoc, ih, Res.ok_bind]
    simp only [get, hx, hy, if_true]
    rw [read_ok (hA n (by omega)), Res.ok_bind, read_ok (hB n (by omega)), Res.ok_bind, fit_ok (hP n (by omega)), Res.ok_bind,
      partSum_succ]
    exact fit_ok (by rw [← partSum_succ (fun i => A i * B i)]; exact hS (n + 1) (by omega))

/-- C631 (on the host; all products, partial sums and results fit into an `int`): `r += x y`. -/
theorem C631_matmul_partial (r x y : IV2) (hr0 : r.dev = 0) (hx0 : x.dev = 0) (hy0 : y.dev = 0) (h0 : x.v.n0 = r.v.n0)
    (h1 : y.v.n1 = r.v.n1) (hI : y.v.n0 = x.v.n1) (hr : r.v.Inj) (hx : r.v.Apart x.v) (hy : r.v.Apart y.v) (m : Buf Int)
    (R X Y : Nat → Nat → Int) (hR : r.v.Has m R) (hX : x.v.Has m X) (hY : y.v.Has m Y)
    (hP : ∀ a, a < r.v.n0 → ∀ b, b < r.v.n1 → ∀ i, i < x.v.n1 → Fits (X a i * Y i b))
    (hS : ∀ a, a < r.v.n0 → ∀ b, b < r.v.n1 → ∀ n, n ≤ x.v.n1 → Fits ((List.range n).map fun i => X a i * Y i b).sum)
    (hT : ∀ a, a < r.v.n0 → ∀ b, b < r.v.n1 → Fits (R a b + ((List.range x.v.n1).map fun i => X a i * Y i b).sum)) :
    ∃ m', r.addMatmulAA x y m = .ok m' ∧
      r.v.Becomes m m' fun a b => R a b + ((List.range x.v.n1).map fun i => X a i * Y i b).sum := by
  obtain ⟨m', g1, g2⟩ := loop2_cells r.v.n0 r.v.n1 r.v.cell
    (fun a b => R a b + ((List.range x.v.n1).map fun i => X a i * Y i b).sum) (fun a b m => do
      let t ← dot x y a b x.v.n1 m
      r.inc a b t m) m hr (fun i hi j hj => by rw [hR i hi j hj]; rfl) (by
    intro a ha b hb m1 hm
    have e1 : m1 (r.v.cell a b) = some (R a b) := by
      rw [hm _ fun k hk l hl hkl e => hkl (hr k hk l hl a ha b hb e.symm)]; exact hR a ha b hb
    have eA : ∀ i, i < x.v.n1 → m1 (x.v.cell a i) = some (X a i) := fun i hi => by
      rw [hm _ fun k hk l hl _ => (hx k hk l hl a (h0 ▸ ha) i hi).symm]; exact hX a (h0 ▸ ha) i hi
    have eB : ∀ i, i < x.v.n1 → m1 (y.v.cell i b) = some (Y i b) := fun i hi => by
      rw [hm _ fun k hk l hl _ => (hy k hk l hl i (hI ▸ hi) b (h1 ▸ hb)).symm]; exact hY i (hI ▸ hi) b (h1 ▸ hb)
    show (do
      let t ← dot x y a b x.v.n1 m1
      r.inc a b t m1) = _
    rw [dot_ok x y hx0 hy0 a b m1 (fun i => X a i) (fun i => Y i b) x.v.n1 eA eB (hP a ha b hb) (hS a ha b hb), Res.ok_bind]
    unfold inc
    rw [if_pos hr0]
    exact bump_ok e1 (hT a ha b hb))
  refine ⟨m', ?_, g2⟩
  unfold addMatmulAA
  rw [decide_eq_true hr0, decide_eq_true h0, decide_eq_true h1, decide_eq_true hI]
  exact g1

/-- C631: a product that does not fit is undefined even when the matrix product would be small. -/
theorem C631_matmul_fails : ∃ (r x y : IV2) (m : Buf Int) (X Y : Nat → Nat → Int), r.dev = 0 ∧ x.dev = 0 ∧ y.dev = 0 ∧ r.v.Inj ∧
    r.v.Apart x.v ∧ r.v.Apart y.v ∧ x.v.Has m X ∧ y.v.Has m Y ∧ x.v.n0 = r.v.n0 ∧ y.v.n1 = r.v.n1 ∧ y.v.n0 = x.v.n1 ∧
    ((List.range x.v.n1).map fun i => X 0 i * Y i 0).sum = 0 ∧ r.addMatmulAA x y m = .ub := by
  refine ⟨⟨⟨0, 1, 1, 1, 1⟩, 0⟩, ⟨⟨1, 1, 2, 2, 1⟩, 0⟩, ⟨⟨3, 2, 1, 1, 1⟩, 0⟩, Buf.ofList [0, 65536, 65536, 65536, -65536],
    fun _ _ => 65536, fun i _ => if i = 0 then 65536 else -65536, rfl, rfl, rfl, ?_, ?_, ?_, ?_, ?_, rfl, rfl, rfl, by decide, by rfl⟩
  · intro i hi j hj k hk l hl _
    have hi : i < 1 := hi
    have hj : j < 1 := hj
    have hk : k < 1 := hk
    have hl : l < 1 := hl
    omega
  · intro i hi j hj k hk l hl
    have hi : i < 1 := hi
    have hj : j < 1 := hj
    have hk : k < 1 := hk
    have hl : l < 2 := hl
    simp only [RV2.cell]; omega
  · intro i hi j hj k hk l hl
    have hi : i < 1 := hi
    have hj : j < 1 := hj
    have hk : k < 2 := hk
    have hl : l < 1 := hl
    simp only [RV2.cell]; omega
  · intro i hi j hj
    have hi : i < 1 := hi
    have hj : j < 2 := hj
    match i, j, hi, hj with
    | 0, 0, _, _ => rfl
    | 0, 1, _, _ => rfl
  · intro i hi j hj
    have hi : i < 2 := hi
    have hj : j < 1 := hj
    match i, j, hi, hj with
    | 0, 0, _, _ => rfl
    | 1, 0, _, _ => rfl

example : ∃ m', addMatmulAA ⟨⟨0, 1, 1, 1, 1⟩, 0⟩ ⟨⟨1, 1, 2, 2, 1⟩, 0⟩ ⟨⟨3, 2, 1, 1, 1⟩, 0⟩ (Buf.ofList [100, 2, 3, 5, 7]) = .ok m' ∧
    m' 0 = some 131 := ⟨_, rfl, rfl⟩

/-! ### C632: the two ways to take a block -/

/-- C632 (sizes of -1 and above): both overloads take the same block, and -1 means the rest. -/
theorem C632_block_partial (n i : Nat) (k : Int) (hk : -1 ≤ k) :
    rest n i k = restConst n i k ∧ (k = -1 → (i : Int) + rest n i k = n) ∧ (0 ≤ k → rest n i k = k) := by
  unfold rest restConst
  refine ⟨?_, fun h => ?_, fun h => ?_⟩
  · by_cases h : k = -1
    · rw [if_pos h, if_pos (by omega)]
    · rw [if_neg h, if_neg (by omega)]
  · rw [if_pos h]; omega
  · rw [if_neg (by omega)]

/-- C632: for every smaller number the overload for views that can be changed gives a negative size, the other one the rest. -/
theorem C632_block_fails (n i : Nat) (hi : i ≤ n) (k : Int) (hk : k < -1) : rest n i k < 0 ∧ 0 ≤ restConst n i k := by
  unfold rest restConst
  rw [if_neg (by omega), if_pos (by omega)]
  omega

example : rest 5 2 (-1) = restConst 5 2 (-1) := (C632_block_partial 5 2 (-1) (by decide)).1
example : rest 5 2 (-2) < 0 := (C632_block_fails 5 2 (by decide) (-2) (by decide)).1

end IV2

end Cnine
