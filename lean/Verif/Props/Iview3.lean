import Verif.Model.Iview3
import Verif.Props.Iview
import Verif.Props.RViewThree

/-! # Properties of vector views of integers and of the product of 3-way views (tensor_views/Itensor1_view.hpp, Itensor3_view.hpp) -/

namespace Cnine

open IV2 (Fits fit_ok bump_ok)

theorem IV2.addRun_ok (c : Int) (m : Buf Int) (src n dst : Nat) (A B : Nat → Int) (hA : ∀ i, i < n → m (dst + i) = some (A i))
    (hB : ∀ i, i < n → m (src + i) = some (B i)) (hc : ∀ i, i < n → ∀ j, j < n → dst + i = src + j → i = j)
    (hf : ∀ i, i < n → Fits (c * B i) ∧ Fits (A i + c * B i)) :
    ∃ m', IV2.addRun c m src n dst = .ok m' ∧ (∀ i, i < n → m' (dst + i) = some (A i + c * B i)) ∧
      ∀ q, (∀ i, i < n → q ≠ dst + i) → m' q = m q := by
  refine loop_cells n (fun k => dst + k) (fun k => A k + c * B k) (fun i m => do
      let b ← m.read (src + i)
      let t ← IV2.fit (c * b)
      IV2.bump m (dst + i) t) m (fun i _ j _ e => by omega) (fun i hi => by rw [hA i hi]; rfl) ?_
  intro k hk m1 hm
  have e1 : m1 (dst + k) = some (A k) := by
    rw [hm _ fun j hj hjk e => hjk (by omega)]; exact hA k hk
  have e2 : m1 (src + k) = some (B k) := by
    rw [hm _ fun j hj hjk e => hjk (hc j hj k hk e.symm)]; exact hB k hk
  obtain ⟨f1, f2⟩ := hf k hk
  rw [read_ok e2, Res.ok_bind, fit_ok f1, Res.ok_bind, bump_ok e1 f2]

namespace IV1

theorem run_vec (c : Int) (r x : IV1) (hn : r.v.n0 = x.v.n0) (hs : r.v.s0 = 1) (hx : x.v.s0 = 1) (hc : r.v.Compat x.v) (m : Buf Int)
    (R X : Nat → Int) (hR : r.v.Has m R) (hX : x.v.Has m X)
    (hf : ∀ i, i < r.v.n0 → Fits (c * X i) ∧ Fits (R i + c * X i)) :
    ∃ m', IV2.addRun c m x.v.arr r.v.n0 r.v.arr = .ok m' ∧ r.v.Becomes m m' fun i => R i + c * X i := by
  have er : ∀ i, r.v.cell i = r.v.arr + i := fun i => by rw [RV1.cell, hs, Nat.one_mul]
  have ex : ∀ i, x.v.cell i = x.v.arr + i := fun i => by rw [RV1.cell, hx, Nat.one_mul]
  obtain ⟨m', g1, g2, g3⟩ := IV2.addRun_ok c m x.v.arr r.v.n0 r.v.arr R X (fun i hi => by rw [← er]; exact hR i hi)
    (fun i hi => by rw [← ex]; exact hX i (hn ▸ hi)) (fun i hi j hj e => hc i hi j (hn ▸ hj) (by rw [er, ex]; exact e)) hf
  exact ⟨m', g1, fun i hi => by rw [er]; exact g2 i hi, fun q hq => g3 q fun i hi => by rw [← er]; exact hq i hi⟩

/-! ### C633: adding a vector -/

/-- C633 (on the host, both strides 1, sums fit): `r += x`. -/
theorem C633_add_partial (r x : IV1) (hr0 : r.dev = 0) (hx0 : x.dev = 0) (hn : r.v.n0 = x.v.n0) (hs : r.v.s0 = 1) (hx : x.v.s0 = 1)
    (hc : r.v.Compat x.v) (m : Buf Int) (R X : Nat → Int) (hR : r.v.Has m R) (hX : x.v.Has m X)
    (hf : ∀ i, i < r.v.n0 → Fits (X i) ∧ Fits (R i + X i)) :
    ∃ m', r.add x m = .ok m' ∧ r.v.Becomes m m' fun i => R i + X i := by
  obtain ⟨m', e, b⟩ := run_vec 1 r x hn hs hx hc m R X hR hX (by simpa using hf)
  refine ⟨m', ?_, by simpa using b⟩
  rw [← e]
  simp [add, hn, hr0, hx0, RV1.isRegular, hs, hx, Res.assrt]

/-- C633: with any other strides the former contents are overwritten by the summand. -/
theorem C633_add_fails (r x : IV1) (hr0 : r.dev = 0) (hx0 : x.dev = 0) (hn : r.v.n0 = x.v.n0) (hs : ¬ (r.v.s0 = 1 ∧ x.v.s0 = 1))
    (hr : r.v.Inj) (hc : r.v.Compat x.v) (m : Buf Int) (R X : Nat → Int) (hR : r.v.Has m R) (hX : x.v.Has m X) :
    ∃ m', r.add x m = .ok m' ∧ r.v.Becomes m m' X := by
  obtain ⟨m', e, b⟩ := C132_strided_overwrites r.v x.v hn hr hs hc m R X hR hX
  refine ⟨m', ?_, b⟩
  rw [← e]
  simp [add, RV1.tAdd, hn, hr0, hx0, RV1.isRegular, hs, Res.assrt, get, setCell]

example : ∃ m', add ⟨⟨0, 2, 1⟩, 0⟩ ⟨⟨2, 2, 1⟩, 0⟩ (Buf.ofList [1, 2, 10, 20]) = .ok m' ∧ m' 1 = some 22 := ⟨_, rfl, rfl⟩
example : ∃ m', add ⟨⟨0, 2, 2⟩, 0⟩ ⟨⟨1, 2, 2⟩, 0⟩ (Buf.ofList [1, 10, 2, 20]) = .ok m' ∧ m' 2 = some 20 := ⟨_, rfl, rfl⟩

/-! ### C634: adding a multiple of a vector -/

/-- C634 (on the host, products and sums fit): `r += c x`, for all strides. -/
theorem C634_scaled_partial (r x : IV1) (c : Int) (hr0 : r.dev = 0) (hx0 : x.dev = 0) (hn : r.v.n0 = x.v.n0) (hr : r.v.Inj)
    (hc : r.v.Compat x.v) (m : Buf Int) (R X : Nat → Int) (hR : r.v.Has m R) (hX : x.v.Has m X)
    (hf : ∀ i, i < r.v.n0 → Fits (c * X i) ∧ Fits (R i + c * X i)) :
    ∃ m', r.addScaled x c m = .ok m' ∧ r.v.Becomes m m' fun i => R i + c * X i := by
  by_cases hs : r.v.s0 = 1 ∧ x.v.s0 = 1
  · obtain ⟨m', e, b⟩ := run_vec c r x hn hs.1 hs.2 hc m R X hR hX hf
    refine ⟨m', ?_, b⟩
    rw [← e]
    simp [addScaled, hn, hr0, hx0, RV1.isRegular, hs, Res.assrt]
  · obtain ⟨m', e, b⟩ := loop_cells r.v.n0 r.v.cell (fun i => R i + c * X i) (fun i m => do
        let b ← m.read (x.v.cell i)
        let t ← IV2.fit (c * b)
        IV2.bump m (r.v.cell i) t) m hr (fun i hi => by rw [hR i hi]; rfl) (by
      intro k hk m1 hm
      have e1 : m1 (r.v.cell k) = some (R k) := by
        rw [hm _ fun j hj hjk e => hjk (hr k hk j hj e).symm]; exact hR k hk
      have e2 : m1 (x.v.cell k) = some (X k) := by
        rw [hm _ fun j hj hjk e => hjk (hc j hj k (hn ▸ hk) e.symm)]; exact hX k (hn ▸ hk)
      obtain ⟨f1, f2⟩ := hf k hk
      rw [read_ok e2, Res.ok_bind, fit_ok f1, Res.ok_bind, bump_ok e1 f2])
    refine ⟨m', ?_, b⟩
    rw [← e]
    simp [addScaled, hn, hr0, hx0, RV1.isRegular, hs, Res.assrt, get, inc]

/-- C634: on the GPU nothing is added and nothing is reported. -/
theorem C634_scaled_fails (r x : IV1) (c : Int) (hr : r.dev ≠ 0) (hn : r.v.n0 = x.v.n0) (m : Buf Int) : r.addScaled x c m = .ok m := by
  simp [addScaled, hn, hr, Res.assrt]

example : ∃ m', addScaled ⟨⟨0, 2, 2⟩, 0⟩ ⟨⟨1, 2, 2⟩, 0⟩ 3 (Buf.ofList [1, 10, 2, 20]) = .ok m' ∧ m' 2 = some 62 := ⟨_, rfl, rfl⟩
example (m : Buf Int) : addScaled ⟨⟨0, 2, 2⟩, 1⟩ ⟨⟨1, 2, 2⟩, 1⟩ 3 m = .ok m := C634_scaled_fails ⟨⟨0, 2, 2⟩, 1⟩ ⟨⟨1, 2, 2⟩, 1⟩ 3 (by decide) rfl m

/-! ### C635: the sum of a vector -/

theorem reduce_core (a s : Nat) (m : Buf Int) (X : Nat → Int) : ∀ n, (∀ i, i < n → m (a + s * i) = some (X i)) →
    (∀ k, k ≤ n → Fits ((List.range k).map X).sum) →
    (loop n (0 : Int) fun i t => do
      let b ← m.read (a + i * s)
      IV2.fit (t + b)) = .ok ((List.range n).map X).sum
  | 0, _, _ => rfl
  | n + 1, hX, hS => by
    rw [RA.loop_snoc, reduce_core a s m X n (fun i hi => hX i (by omega)) (fun k hk => hS k (by omega)), Res.ok_bind, Nat.mul_comm n s,
      read_ok (hX n (by omega)), Res.ok_bind]
    have := hS (n + 1) (by omega)
    simp only [List.range_succ, List.map_append, List.sum_append, List.map_cons, List.map_nil, List.sum_cons, List.sum_nil,
      Int.add_zero] at this ⊢
    exact fit_ok this

/-- C635 (on the host, all partial sums fit): the sum of the cells. -/
theorem C635_reduce_partial (x : IV1) (h : x.dev = 0) (m : Buf Int) (X : Nat → Int) (hX : x.v.Has m X)
    (hS : ∀ k, k ≤ x.v.n0 → Fits ((List.range k).map X).sum) : x.reduce m = .ok ((List.range x.v.n0).map X).sum := by
  unfold reduce
  rw [if_pos h]
  exact reduce_core x.v.arr x.v.s0 m X x.v.n0 hX hS

/-- C635: on the GPU the sum is always 0. -/
theorem C635_reduce_fails (x : IV1) (h : x.dev ≠ 0) (m : Buf Int) : x.reduce m = .ok 0 := if_neg h

example : reduce ⟨⟨0, 3, 2⟩, 0⟩ (Buf.ofList [1, 10, 2, 20, 3]) = .ok 6 := rfl
example : reduce ⟨⟨0, 3, 2⟩, 1⟩ (Buf.ofList [1, 10, 2, 20, 3]) = .ok 0 := C635_reduce_fails ⟨⟨0, 3, 2⟩, 1⟩ (by decide) _

end IV1

namespace IV3

/-! ### C636: multiplying each matrix of a stack -/

theorem dot_ok (x : IV3) (y : IV2) (hx : x.dev = 0) (hy : y.dev = 0) (c a b : Nat) (m : Buf Int) (A B : Nat → Int) :
    ∀ n, (∀ i, i < n → m (x.v.cell c a i) = some (A i)) → (∀ i, i < n → m (y.v.cell i b) = some (B i)) →
      (∀ i, i < n → Fits (A i * B i)) → (∀ i, i ≤ n → Fits (IV2.partSum (fun i => A i * B i) i)) →
      dot x y c a b n m = .ok (IV2.partSum (fun i => A i * B i) n)
  | 0, _, _, _, _ => rfl
  | n + 1, hA, hB, hP, hS => by
    have ih := dot_ok x y hx hy c a b m A B n (fun i hi => hA i (by omega)) (fun i hi => hB i (by omega)) (fun i hi => hP i (by omega))
      (fun i hi => hS i (by omega))
    unfold dot at ih ⊢
    rw [RA.loop_snoc, ih, Res.ok_bind]
    simp only [get, IV2.get, hx, hy, if_true]
    rw [read_ok (hA n (by omega)), Res.ok_bind, read_ok (hB n (by omega)), Res.ok_bind, fit_ok (hP n (by omega)), Res.ok_bind,
      IV2.partSum_succ]
    exact fit_ok (by rw [← IV2.partSum_succ (fun i => A i * B i)]; exact hS (n + 1) (by omega))

/-- C636 (on the host; as many matrices as rows and columns in the result; everything fits): each matrix of the stack is multiplied. -/
theorem C636_matmul_partial (r x : IV3) (y : IV2) (hr0 : r.dev = 0) (hx0 : x.dev = 0) (hy0 : y.dev = 0) (h01 : r.v.n0 = r.v.n1)
    (h12 : r.v.n2 = r.v.n1) (h0 : r.v.n0 = x.v.n0) (h1 : x.v.n1 = r.v.n1) (h2 : y.v.n1 = r.v.n2) (hI : y.v.n0 = x.v.n2) (hr : r.v.Inj)
    (hx : r.v.Apart x.v) (hy : r.v.Apart2 y.v) (m : Buf Int) (R X : Nat → Nat → Nat → Int) (Y : Nat → Nat → Int) (hR : r.v.Has m R)
    (hX : x.v.Has m X) (hY : y.v.Has m Y)
    (hP : ∀ c, c < r.v.n0 → ∀ a, a < r.v.n1 → ∀ b, b < r.v.n2 → ∀ i, i < x.v.n2 → Fits (X c a i * Y i b))
    (hS : ∀ c, c < r.v.n0 → ∀ a, a < r.v.n1 → ∀ b, b < r.v.n2 → ∀ n, n ≤ x.v.n2 → Fits ((List.range n).map fun i => X c a i * Y i b).sum)
    (hT : ∀ c, c < r.v.n0 → ∀ a, a < r.v.n1 → ∀ b, b < r.v.n2 →
      Fits (R c a b + ((List.range x.v.n2).map fun i => X c a i * Y i b).sum)) :
    ∃ m', r.addMatmulAA x y m = .ok m' ∧
      r.v.Has m' (fun c a b => R c a b + ((List.range x.v.n2).map fun i => X c a i * Y i b).sum) ∧
      ∀ q, (∀ c, c < r.v.n0 → ∀ a, a < r.v.n1 → ∀ b, b < r.v.n2 → q ≠ r.v.cell c a b) → m' q = m q := by
  obtain ⟨m', g1, g2, g3⟩ := loop3_cells r.v.n0 r.v.n1 r.v.n2 r.v.cell
    (fun c a b => R c a b + ((List.range x.v.n2).map fun i => X c a i * Y i b).sum) (fun c a b m => do
      let t ← dot x y c a b x.v.n2 m
      r.inc c a b t m) m hr (fun i hi j hj k hk => by rw [hR i hi j hj k hk]; rfl) (by
    intro c hc a ha b hb m1 hm
    have e1 : m1 (r.v.cell c a b) = some (R c a b) := by
      rw [hm _ fun i hi j hj k hk hne e => hne (by obtain ⟨e1, e2, e3⟩ := hr c hc a ha b hb i hi j hj k hk e; exact ⟨e1.symm, e2.symm, e3.symm⟩)]
      exact hR c hc a ha b hb
    have eA : ∀ i, i < x.v.n2 → m1 (x.v.cell c a i) = some (X c a i) := fun i hi => by
      rw [hm _ fun k hk l hl p hp _ => (hx k hk l hl p hp c (h0 ▸ hc) a (h1 ▸ ha) i hi).symm]
      exact hX c (h0 ▸ hc) a (h1 ▸ ha) i hi
    have eB : ∀ i, i < x.v.n2 → m1 (y.v.cell i b) = some (Y i b) := fun i hi => by
      rw [hm _ fun k hk l hl p hp _ => (hy k hk l hl p hp i (hI ▸ hi) b (h2 ▸ hb)).symm]
      exact hY i (hI ▸ hi) b (h2 ▸ hb)
    show (do
      let t ← dot x y c a b x.v.n2 m1
      r.inc c a b t m1) = _
    rw [dot_ok x y hx0 hy0 c a b m1 (fun i => X c a i) (fun i => Y i b) x.v.n2 eA eB (hP c hc a ha b hb) (hS c hc a ha b hb), Res.ok_bind]
    unfold inc
    rw [if_pos hr0]
    exact bump_ok e1 (hT c hc a ha b hb))
  refine ⟨m', ?_, g2, g3⟩
  rw [h12, ← h01] at g1
  unfold addMatmulAA
  rw [decide_eq_true hr0, decide_eq_true h0, decide_eq_true h1, decide_eq_true (h2.trans h12), decide_eq_true hI, ← h0, ← h01]
  exact g1

/-- C636: results with different numbers of rows and columns are refused when all sizes are right. -/
theorem C636_refused_fails (r x : IV3) (y : IV2) (h : r.v.n2 ≠ r.v.n1) (h2 : y.v.n1 = r.v.n2) (m : Buf Int) :
    r.addMatmulAA x y m = .throw := by
  unfold addMatmulAA
  rw [decide_eq_false (show ¬ y.v.n1 = r.v.n1 from fun e => h (h2.symm.trans e))]
  unfold Res.assrt
  by_cases a : r.dev = 0 <;> by_cases b : r.v.n0 = x.v.n0 <;> by_cases c : x.v.n1 = r.v.n1 <;> simp [a, b, c]

/-- C636: a single matrix of two rows: the second row of the product is never added. -/
theorem C636_rows_fails : ∃ (r x : IV3) (y : IV2) (m m' : Buf Int), r.dev = 0 ∧ x.dev = 0 ∧ y.dev = 0 ∧ r.v.isRegular = true ∧
    x.v.isRegular = true ∧ y.v.isRegular = true ∧ r.v.n0 = x.v.n0 ∧ r.v.n1 = x.v.n1 ∧ r.v.n2 = y.v.n1 ∧ y.v.n0 = x.v.n2 ∧
    r.addMatmulAA x y m = .ok m' ∧ (m (x.v.cell 0 1 0) = some 3 ∧ m (y.v.cell 0 0) = some 5 ∧ x.v.n2 = 1) ∧
    m (r.v.cell 0 1 0) = some 0 ∧ m' (r.v.cell 0 1 0) = some 0 :=
  ⟨⟨⟨0, 1, 2, 2, 4, 2, 1⟩, 0⟩, ⟨⟨4, 1, 2, 1, 2, 1, 1⟩, 0⟩, ⟨⟨6, 1, 2, 2, 1⟩, 0⟩, Buf.ofList [0, 0, 0, 0, 2, 3, 5, 7], _, rfl, rfl, rfl,
    by decide, by decide, by decide, rfl, rfl, rfl, rfl, rfl, ⟨rfl, rfl, rfl⟩, rfl, rfl⟩

example : ∃ m', addMatmulAA ⟨⟨0, 1, 1, 1, 1, 1, 1⟩, 0⟩ ⟨⟨1, 1, 1, 2, 2, 2, 1⟩, 0⟩ ⟨⟨3, 2, 1, 1, 1⟩, 0⟩ (Buf.ofList [100, 2, 3, 5, 7]) =
    .ok m' ∧ m' 0 = some 131 := ⟨_, rfl, rfl⟩
example (m : Buf Int) : addMatmulAA ⟨⟨0, 1, 2, 3, 6, 3, 1⟩, 0⟩ ⟨⟨6, 1, 2, 1, 2, 1, 1⟩, 0⟩ ⟨⟨8, 1, 3, 3, 1⟩, 0⟩ m = .throw :=
  C636_refused_fails ⟨⟨0, 1, 2, 3, 6, 3, 1⟩, 0⟩ ⟨⟨6, 1, 2, 1, 2, 1, 1⟩, 0⟩ ⟨⟨8, 1, 3, 3, 1⟩, 0⟩ (by decide) rfl m

end IV3

end Cnine
