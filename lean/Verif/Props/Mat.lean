import Verif.Lemmas.Cellwise
import Verif.Model.Mat
import Verif.Props.Assign
import Verif.Props.Reduce
import Mathlib.Tactic.IntervalCases

/-! # C21, C22: matrix-vector products and tensor products -/

namespace Cnine

open View

variable {α : Type _}

theorem loop_sum [AddCommMonoid α] (p : Nat) (t0 : α) (body : Nat → α → Res α) (g : Nat → α)
    (h : ∀ k, k < p → ∀ t, body k t = .ok (t + g k)) :
    loop p t0 body = .ok (t0 + ((List.range p).map g).sum) := by
  unfold loop
  have : ∀ (l : List Nat) (t : α), (∀ k ∈ l, k < p) →
      Res.forM l t (fun s i => body i s) = .ok (t + (l.map g).sum) := by
    intro l
    induction l with
    | nil => intro t _; simp
    | cons a l ih =>
      intro t hl
      rw [Res.forM_cons, h a (hl a (by simp)), Res.ok_bind, ih _ fun k hk => hl k (by simp [hk])]
      simp [add_assoc]
  exact this _ _ fun k hk => List.mem_range.1 hk

theorem at1_eq (v : View) (s i : Nat) (h : v.strides = [s]) : v.at1 i = .ok (v.cell [i]) := by
  simp [at1, Res.get, h, View.cell, Nat.mul_comm i s]

theorem at2_eq (v : View) (s t i j : Nat) (h : v.strides = [s, t]) : v.at2 i j = .ok (v.cell [i, j]) := by
  simp [at2, Res.get, h, View.cell, Nat.mul_comm i s, Nat.mul_comm j t]

theorem at3_eq (v : View) (s t u i j k : Nat) (h : v.strides = [s, t, u]) :
    v.at3 i j k = .ok (v.cell [i, j, k]) := by
  simp [at3, Res.get, h, View.cell, Nat.mul_comm i s, Nat.mul_comm j t, Nat.mul_comm k u, Nat.add_assoc]

theorem strides1 {v : View} {n : Nat} (hwf : v.WF) (h : v.dims = [n]) : ∃ s, v.strides = [s] := by
  have : v.strides.length = v.dims.length := hwf
  rw [h] at this
  exact List.length_eq_one_iff.1 this

theorem strides2 {v : View} {n p : Nat} (hwf : v.WF) (h : v.dims = [n, p]) : ∃ s t, v.strides = [s, t] := by
  have : v.strides.length = v.dims.length := hwf
  rw [h] at this
  exact List.length_eq_two.1 this

theorem strides3 {v : View} {n p q : Nat} (hwf : v.WF) (h : v.dims = [n, p, q]) : ∃ s t u, v.strides = [s, t, u] := by
  have : v.strides.length = v.dims.length := hwf
  rw [h] at this
  exact List.length_eq_three.1 this

theorem inRange1 {i n : Nat} : InRange [i] [n] ↔ i < n := by
  simp [InRange]

theorem inRange2 {i j n p : Nat} : InRange [i, j] [n, p] ↔ i < n ∧ j < p := by
  simp [InRange]

/-- Core of both products: row `i` of the result gains `Σ_{k<p} A i k * B k`. -/
theorem mv_core [NonUnitalNonAssocSemiring α] (r : View) (n p : Nat) (hr : r.WF) (hrd : r.dims = [n])
    (hdist : r.Distinct) (m0 : Buf α) (R : Nat → α) (hR : ∀ i, i < n → r.val m0 [i] = some (R i))
    (body : Nat → Buf α → Nat → α → Res α) (g : Nat → Nat → α)
    (hbody : ∀ i, i < n → ∀ m : Buf α, (∀ c, (∀ j, j < n → c ≠ r.cell [j]) → m c = m0 c) →
      ∀ k, k < p → ∀ t, body i m k t = .ok (t + g i k)) :
    ∃ m', loop n m0 (fun i m => do
        let t ← loop p (0 : α) (body i m)
        r.inc1 i t m) = .ok m' ∧
      (∀ i, i < n → r.val m' [i] = some (R i + ((List.range p).map (g i)).sum)) ∧
      ∀ c, (∀ i, i < n → c ≠ r.cell [i]) → m' c = m0 c := by
  obtain ⟨s, hs⟩ := strides1 hr hrd
  have hinj : ∀ i j, i < n → j < n → r.cell [i] = r.cell [j] → i = j := by
    intro i j hi hj e
    have := hdist [i] [j] (by rw [hrd]; exact inRange1.2 hi) (by rw [hrd]; exact inRange1.2 hj) e
    simpa using this
  obtain ⟨m', h1, h2, h3⟩ := forM_regions (List.range n) (fun m i => do
        let t ← loop p (0 : α) (body i m)
        r.inc1 i t m) (fun i c => c = r.cell [i])
    (fun i _ => some (R i + ((List.range p).map (g i)).sum)) m0 List.nodup_range
    (by
      rintro i hi j hj hij c rfl e
      exact hij (hinj i j (List.mem_range.1 hi) (List.mem_range.1 hj) e))
    (by
      intro i hi m hm
      have hi' := List.mem_range.1 hi
      have hmi : m (r.cell [i]) = some (R i) := by
        rw [hm _ fun j hj hji e => hji (hinj j i (List.mem_range.1 hj) hi' e.symm)]
        exact hR i hi'
      refine ⟨fun c => if c = r.cell [i] then some (R i + ((List.range p).map (g i)).sum) else m c, ?_, ?_, ?_⟩
      · rw [loop_sum p 0 _ (g i) (hbody i hi' m fun c hc => hm c fun j hj _ => hc j (List.mem_range.1 hj)),
          Res.ok_bind, zero_add]
        simp only [inc1, at1_eq r s i hs, Res.ok_bind, Buf.read, Buf.write, hmi]
      · rintro c rfl; simp
      · intro c hc; simp [hc])
  refine ⟨m', h1, ?_, ?_⟩
  · intro i hi; exact h2 i (List.mem_range.2 hi) _ rfl
  · intro c hc; exact h3 c fun i hi e => hc i (List.mem_range.1 hi) e

/-! ## C21 -/

/-- `r.add_mvprod(x,y)` with `x` an `n`×`p` matrix: `r_i` gains `Σ_{k<p} x_{ik} y_k`; nothing else
changes. -/
theorem C21_mvprod [NonUnitalNonAssocSemiring α] (r x y : View) (n p : Nat) (hr : r.WF) (hx : x.WF) (hy : y.WF)
    (hrd : r.dims = [n]) (hxd : x.dims = [n, p]) (hyd : y.dims = [p]) (hdist : r.Distinct)
    (hrx : r.Apart x) (hry : r.Apart y) (m : Buf α) (R : Nat → α) (X : Nat → Nat → α) (Y : Nat → α)
    (hR : ∀ i, i < n → r.val m [i] = some (R i))
    (hX : ∀ i k, i < n → k < p → x.val m [i, k] = some (X i k))
    (hY : ∀ k, k < p → y.val m [k] = some (Y k)) :
    ∃ m', addMvprod r x y m = .ok m' ∧
      (∀ i, i < n → r.val m' [i] = some (R i + ((List.range p).map fun k => X i k * Y k).sum)) ∧
      ∀ c, (∀ i, i < n → c ≠ r.cell [i]) → m' c = m c := by
  obtain ⟨xs, xt, hxs⟩ := strides2 hx hxd
  obtain ⟨ys, hys⟩ := strides1 hy hyd
  obtain ⟨m', h1, h2⟩ := mv_core r n p hr hrd hdist m R hR (fun i m k t => do
      let a ← x.at2 i k
      let p ← m.read a
      let b ← y.at1 k
      let q ← m.read b
      .ok (t + p * q)) (fun i k => X i k * Y k) (by
    intro i hi m' hm' k hk t
    have e1 : m' (x.cell [i, k]) = some (X i k) := by
      rw [hm' _ fun j hj => (hrx [j] [i, k] (by rw [hrd]; exact inRange1.2 hj)
        (by rw [hxd]; exact inRange2.2 ⟨hi, hk⟩)).symm]
      exact hX i k hi hk
    have e2 : m' (y.cell [k]) = some (Y k) := by
      rw [hm' _ fun j hj => (hry [j] [k] (by rw [hrd]; exact inRange1.2 hj) (by rw [hyd]; exact inRange1.2 hk)).symm]
      exact hY k hk
    simp only [at2_eq x xs xt i k hxs, at1_eq y ys k hys, Res.ok_bind, Buf.read, e1, e2])
  refine ⟨m', ?_, h2⟩
  rw [← h1]
  simp [addMvprod, Res.get, hrd, hxd, hyd]

/-- Mismatching sizes are refused. -/
theorem C21_mvprod_refuses [NonUnitalNonAssocSemiring α] (r x y : View) (n n' p p' : Nat) (hrd : r.dims = [n])
    (hxd : x.dims = [n', p]) (hyd : y.dims = [p']) (h : n' ≠ n ∨ p ≠ p') (m : Buf α) :
    addMvprod r x y m = .throw := by
  unfold addMvprod
  simp only [Res.get, hrd, hxd, hyd, List.getElem?_cons_zero, List.getElem?_cons_succ, Res.ok_bind]
  by_cases h1 : n' = n
  · have h2 : p ≠ p' := by rcases h with h | h; · exact absurd h1 h
                           · exact h
    simp [h1, h2]
  · simp [h1]

/-- `r.add_mvprod_T(x,y)` for a square `n`×`n` matrix: `r_i` gains `Σ_{k<n} x_{ki} y_k`.
Missing: rectangular matrices, see `C21_mvprod_T_wide_fails` and `C21_mvprod_T_tall_fails`. -/
theorem C21_mvprod_T_partial [NonUnitalNonAssocSemiring α] (r x y : View) (n : Nat) (hr : r.WF) (hx : x.WF)
    (hy : y.WF) (hrd : r.dims = [n]) (hxd : x.dims = [n, n]) (hyd : y.dims = [n]) (hdist : r.Distinct)
    (hrx : r.Apart x) (hry : r.Apart y) (m : Buf α) (R : Nat → α) (X : Nat → Nat → α) (Y : Nat → α)
    (hR : ∀ i, i < n → r.val m [i] = some (R i))
    (hX : ∀ k i, k < n → i < n → x.val m [k, i] = some (X k i))
    (hY : ∀ k, k < n → y.val m [k] = some (Y k)) :
    ∃ m', addMvprodT r x y m = .ok m' ∧
      (∀ i, i < n → r.val m' [i] = some (R i + ((List.range n).map fun k => X k i * Y k).sum)) ∧
      ∀ c, (∀ i, i < n → c ≠ r.cell [i]) → m' c = m c := by
  obtain ⟨xs, xt, hxs⟩ := strides2 hx hxd
  obtain ⟨ys, hys⟩ := strides1 hy hyd
  obtain ⟨m', h1, h2⟩ := mv_core r n n hr hrd hdist m R hR (fun i m k t => do
      let a ← x.at2 k i
      let p ← m.read a
      let b ← y.at1 k
      let q ← m.read b
      .ok (t + p * q)) (fun i k => X k i * Y k) (by
    intro i hi m' hm' k hk t
    have e1 : m' (x.cell [k, i]) = some (X k i) := by
      rw [hm' _ fun j hj => (hrx [j] [k, i] (by rw [hrd]; exact inRange1.2 hj)
        (by rw [hxd]; exact inRange2.2 ⟨hk, hi⟩)).symm]
      exact hX k i hk hi
    have e2 : m' (y.cell [k]) = some (Y k) := by
      rw [hm' _ fun j hj => (hry [j] [k] (by rw [hrd]; exact inRange1.2 hj) (by rw [hyd]; exact inRange1.2 hk)).symm]
      exact hY k hk
    simp only [at2_eq x xs xt k i hxs, at1_eq y ys k hys, Res.ok_bind, Buf.read, e1, e2])
  refine ⟨m', ?_, h2⟩
  rw [← h1]
  simp [addMvprodT, Res.get, hrd, hxd, hyd]

/-- A 1×2 matrix `x`, a vector `y` of length 1 and a result of length 2 are the right sizes for
`xᵀy`, but the code reads `y(1)` and `x(1,i)`, outside the tensors. -/
theorem C21_mvprod_T_wide_fails :
    ∃ (r x y : View) (m : Buf Int), r.WF ∧ x.WF ∧ y.WF ∧ r.dims = [2] ∧ x.dims = [1, 2] ∧ y.dims = [1] ∧
      r.Alloc m ∧ x.Alloc m ∧ y.Alloc m ∧ addMvprodT r x y m = .ub := by
  refine ⟨⟨0, [2], [1]⟩, ⟨2, [1, 2], [2, 1]⟩, ⟨4, [1], [1]⟩, Buf.ofList [0, 0, 1, 1, 1], by decide, by decide,
    by decide, rfl, rfl, rfl, by decide, by decide, by decide, by rfl⟩

/-- A 2×1 matrix: only the first row is used (`xᵀy = 1*1+1*1 = 2`, the code adds 1). -/
theorem C21_mvprod_T_tall_fails :
    ∃ (r x y : View) (m : Buf Int), r.WF ∧ x.WF ∧ y.WF ∧ r.dims = [1] ∧ x.dims = [2, 1] ∧ y.dims = [2] ∧
      (∀ i, i < 1 → r.val m [i] = some 0) ∧ (∀ k i, k < 2 → i < 1 → x.val m [k, i] = some 1) ∧
      (∀ k, k < 2 → y.val m [k] = some 1) ∧
      ∃ m', addMvprodT r x y m = .ok m' ∧ r.val m' [0] = some 1 := by
  refine ⟨⟨0, [1], [1]⟩, ⟨1, [2, 1], [1, 1]⟩, ⟨3, [2], [1]⟩, Buf.ofList [0, 1, 1, 1, 1], by decide, by decide,
    by decide, rfl, rfl, rfl, ?_, ?_, ?_, _, rfl, by decide⟩
  · intro i h
    interval_cases i
    decide
  · intro k i h1 h2
    interval_cases i
    interval_cases k <;> decide
  · intro k h
    interval_cases k <;> decide

example : (addMvprod ⟨0, [2], [1]⟩ ⟨2, [2, 3], [3, 1]⟩ ⟨8, [3], [1]⟩
    (Buf.ofList [10, (20 : Int), 1, 2, 3, 4, 5, 6, 1, 0, 2])).bind (fun m => .ok (m 0, m 1)) =
    .ok (some (10 + 7), some (20 + 16)) := by decide
example : (⟨0, [2], [1]⟩ : View).Apart ⟨2, [2, 3], [3, 1]⟩ ∧ (⟨0, [2], [1]⟩ : View).Apart ⟨8, [3], [1]⟩ := by decide

/-! ## C22 -/

/-- Index `(i_k * d_k + j_k)_k` of the Kronecker product. -/
def kronIx : List Nat → List Nat → List Nat → List Nat
  | d :: ds, i :: is, j :: js => (i * d + j) :: kronIx ds is js
  | _, _, _ => []

/-- `kronIx` pairs the indices of the two factors one to one with the indices of the product. -/
theorem C22_kron_bijection (xd yd : List Nat) (hl : xd.length = yd.length) :
    (∀ ix jx, InRange ix xd → InRange jx yd → InRange (kronIx yd ix jx) (List.zipWith (· * ·) xd yd)) ∧
    (∀ ix jx ix' jx', InRange ix xd → InRange jx yd → InRange ix' xd → InRange jx' yd →
      kronIx yd ix jx = kronIx yd ix' jx' → ix = ix' ∧ jx = jx') ∧
    ∀ kx, InRange kx (List.zipWith (· * ·) xd yd) → ∃ ix jx, InRange ix xd ∧ InRange jx yd ∧ kronIx yd ix jx = kx := by
  induction xd generalizing yd with
  | nil =>
    cases yd with
    | nil =>
      refine ⟨?_, ?_, ?_⟩
      · intro ix jx h1 h2; cases h1; cases h2; exact inRange_nil
      · intro ix jx ix' jx' h1 h2 h3 h4 _; cases h1; cases h2; cases h3; cases h4; exact ⟨rfl, rfl⟩
      · intro kx h; cases h; exact ⟨[], [], inRange_nil, inRange_nil, rfl⟩
    | cons _ _ => simp at hl
  | cons e xd ih =>
    cases yd with
    | nil => simp at hl
    | cons d yd =>
      obtain ⟨g1, g2, g3⟩ := ih yd (by simpa using hl)
      refine ⟨?_, ?_, ?_⟩
      · intro ix jx h1 h2
        cases h1 with
        | cons a h1 => cases h2 with
          | cons b h2 => exact inRange_cons.2 ⟨divmod_lt a b, g1 _ _ h1 h2⟩
      · intro ix jx ix' jx' h1 h2 h3 h4 he
        cases h1 with
        | cons a h1 => cases h2 with
          | cons b h2 => cases h3 with
            | cons a' h3 => cases h4 with
              | cons b' h4 =>
                simp only [kronIx, List.cons.injEq] at he
                obtain ⟨e1, e2⟩ := divmod_inj b b' he.1
                obtain ⟨e3, e4⟩ := g2 _ _ _ _ h1 h2 h3 h4 he.2
                exact ⟨by rw [e1, e3], by rw [e2, e4]⟩
      · intro kx h
        cases h with
        | @cons k _ ks _ a h =>
          obtain ⟨ix, jx, q1, q2, q3⟩ := g3 _ h
          have hd : 0 < d := by
            rcases Nat.eq_zero_or_pos d with h0 | h0
            · subst h0; simp at a
            · exact h0
          refine ⟨k / d :: ix, k % d :: jx, inRange_cons.2 ⟨?_, q1⟩, inRange_cons.2 ⟨Nat.mod_lt _ hd, q2⟩, ?_⟩
          · exact Nat.div_lt_of_lt_mul (by rw [Nat.mul_comm]; exact a)
          · simp only [kronIx, q3]
            rw [Nat.div_add_mod']

theorem loops2 {σ : Type _} (a b : Nat) (s : σ) (f : List Nat → σ → Res σ) :
    loop a s (fun i s => loop b s fun j s => f [i, j] s) =
      Res.forM (allIndices [a, b]) s (fun s ix => f ix s) := by
  simp only [allIndices, forM_flatMap, forM_map, loop, List.map_cons, List.map_nil]
  apply forM_congr
  intro i _ s
  apply forM_congr
  intro j _ s
  simp only [Res.forM_cons, Res.forM_nil]
  cases f [i, j] s <;> rfl

theorem loops1 {σ : Type _} (a : Nat) (s : σ) (f : List Nat → σ → Res σ) :
    loop a s (fun i s => f [i] s) = Res.forM (allIndices [a]) s (fun s ix => f ix s) := by
  simp only [allIndices, forM_flatMap, loop, List.map_cons, List.map_nil]
  apply forM_congr
  intro i _ s
  simp only [Res.forM_cons, Res.forM_nil]
  cases f [i] s <;> rfl

theorem loops3 {σ : Type _} (a b c : Nat) (s : σ) (f : List Nat → σ → Res σ) :
    loop a s (fun i s => loop b s fun j s => loop c s fun k s => f [i, j, k] s) =
      Res.forM (allIndices [a, b, c]) s (fun s ix => f ix s) := by
  simp only [allIndices, forM_flatMap, forM_map, loop, List.map_cons, List.map_nil]
  apply forM_congr
  intro i _ s
  apply forM_congr
  intro j _ s
  apply forM_congr
  intro k _ s
  simp only [Res.forM_cons, Res.forM_nil]
  cases f [i, j, k] s <;> rfl

/-- `add_tprod` as one loop over the indices of `x`. -/
theorem addTprod_eq [Add α] [Mul α] (r x y : View) (hx : x.WF) (hl : x.dims.length = y.dims.length)
    (h1 : 1 ≤ x.dims.length) (h3 : x.dims.length ≤ 3) (hrd : r.dims = List.zipWith (· * ·) x.dims y.dims) (m : Buf α) :
    addTprod r x y m = Res.forM (allIndices x.dims) m (fun m ix =>
      tprodBody r y (List.zipWith (· * ·) ix y.dims) (x.cell ix) m) := by
  unfold addTprod
  simp only [hl, decide_true, Res.assrt_true, Res.ok_bind]
  match hxd : x.dims, hyd : y.dims with
  | [x0], [y0] =>
    obtain ⟨s, hs⟩ := strides1 hx hxd
    rw [hxd, hyd] at hrd
    simp only [hrd, Res.get, List.zipWith_cons_cons, List.zipWith_nil_left, List.getElem?_cons_zero, Res.ok_bind,
      decide_true, Res.assrt_true, List.length_cons, List.length_nil, at1_eq x s _ hs]
    exact loops1 x0 m fun ix m => tprodBody r y (List.zipWith (· * ·) ix [y0]) (x.cell ix) m
  | [x0, x1], [y0, y1] =>
    obtain ⟨s, t, hs⟩ := strides2 hx hxd
    rw [hxd, hyd] at hrd
    simp only [hrd, Res.get, List.zipWith_cons_cons, List.zipWith_nil_left, List.getElem?_cons_zero,
      List.getElem?_cons_succ, Res.ok_bind, decide_true, Res.assrt_true, at2_eq x s t _ _ hs]
    exact loops2 x0 x1 m fun ix m => tprodBody r y (List.zipWith (· * ·) ix [y0, y1]) (x.cell ix) m
  | [x0, x1, x2], [y0, y1, y2] =>
    obtain ⟨s, t, u, hs⟩ := strides3 hx hxd
    rw [hxd, hyd] at hrd
    simp only [hrd, Res.get, List.zipWith_cons_cons, List.zipWith_nil_left, List.getElem?_cons_zero,
      List.getElem?_cons_succ, Res.ok_bind, decide_true, Res.assrt_true, at3_eq x s t u _ _ _ hs]
    exact loops3 x0 x1 x2 m fun ix m => tprodBody r y (List.zipWith (· * ·) ix [y0, y1, y2]) (x.cell ix) m
  | [], _ => rw [hxd] at h1; simp at h1
  | _ :: _ :: _ :: _ :: _, _ => rw [hxd] at h3; simp at h3
  | [_], [] | [_], _ :: _ :: _ => rw [hxd, hyd] at hl; simp at hl
  | [_, _], [] | [_, _], [_] | [_, _], _ :: _ :: _ :: _ => rw [hxd, hyd] at hl; simp at hl
  | [_, _, _], [] | [_, _, _], [_] | [_, _, _], [_, _] | [_, _, _], _ :: _ :: _ :: _ :: _ =>
    rw [hxd, hyd] at hl; simp at hl

theorem kron_block {xd yd ix : List Nat} (hl : xd.length = yd.length) (h : InRange ix xd) :
    yd.length = (List.zipWith (· * ·) ix yd).length ∧
    List.Forall₂ (· ≤ ·) (List.zipWith (· + ·) (List.zipWith (· * ·) ix yd) yd) (List.zipWith (· * ·) xd yd) ∧
    ∀ jx, InRange jx yd → List.zipWith (· + ·) (List.zipWith (· * ·) ix yd) jx = kronIx yd ix jx := by
  induction h generalizing yd with
  | nil =>
    cases yd with
    | nil => exact ⟨rfl, List.Forall₂.nil, fun jx h => by cases h; rfl⟩
    | cons _ _ => simp at hl
  | @cons i e is xd a h ih =>
    cases yd with
    | nil => simp at hl
    | cons d yd =>
      obtain ⟨g1, g2, g3⟩ := ih (yd := yd) (by simpa using hl)
      refine ⟨by simpa using g1, List.Forall₂.cons ?_ g2, ?_⟩
      · show i * d + d ≤ e * d
        rw [← Nat.succ_mul]
        exact Nat.mul_le_mul_right _ a
      · intro jx h
        cases h with
        | cons b h => simp [kronIx, g3 _ h]

/-- `r.add_tprod(x,y)` for ranks 1 to 3: the element at index `(i_k*dim(y)_k+j_k)_k` gains `x_i * y_j`;
nothing outside `r` changes. -/
theorem C22_tprod [Add α] [Mul α] (r x y : View) (hr : r.WF) (hx : x.WF) (hy : y.WF)
    (hl : x.dims.length = y.dims.length) (h1 : 1 ≤ x.dims.length) (h3 : x.dims.length ≤ 3)
    (hrd : r.dims = List.zipWith (· * ·) x.dims y.dims) (hdist : r.Distinct) (hrx : r.Apart x) (hry : r.Apart y)
    (m : Buf α) (R X Y : List Nat → α) (hR : ∀ kx, InRange kx r.dims → r.val m kx = some (R kx))
    (hX : ∀ ix, InRange ix x.dims → x.val m ix = some (X ix))
    (hY : ∀ jx, InRange jx y.dims → y.val m jx = some (Y jx)) :
    ∃ m', addTprod r x y m = .ok m' ∧
      (∀ ix jx, InRange ix x.dims → InRange jx y.dims →
        r.val m' (kronIx y.dims ix jx) = some (R (kronIx y.dims ix jx) + X ix * Y jx)) ∧
      ∀ c, (∀ kx, InRange kx r.dims → c ≠ r.cell kx) → m' c = m c := by
  obtain ⟨k1, k2, k3⟩ := C22_kron_bijection x.dims y.dims hl
  rw [addTprod_eq r x y hx hl h1 h3 hrd]
  obtain ⟨m', g1, g2, g3⟩ := forM_regions (allIndices x.dims) (fun m ix =>
      tprodBody r y (List.zipWith (· * ·) ix y.dims) (x.cell ix) m)
    (fun ix c => ∃ jx, InRange jx y.dims ∧ c = r.cell (kronIx y.dims ix jx))
    (fun ix c => (m c).bind fun a => ((allIndices y.dims).find? fun jx => r.cell (kronIx y.dims ix jx) = c).map
      fun jx => a + X ix * Y jx) m (allIndices_nodup _)
    (by
      rintro ix hix ix' hix' hne c ⟨jx, hjx, rfl⟩ ⟨jx', hjx', e⟩
      rw [mem_allIndices] at hix hix'
      have := hdist _ _ (by rw [hrd]; exact k1 ix jx hix hjx) (by rw [hrd]; exact k1 ix' jx' hix' hjx') e
      exact hne (k2 ix jx ix' jx' hix hjx hix' hjx' this).1)
    (by
      intro ix hix m1 hm1
      rw [mem_allIndices] at hix
      obtain ⟨b1, b2, b3⟩ := kron_block hl hix
      obtain ⟨b, hb, hbd, hbr⟩ := (C13_block r y.dims (List.zipWith (· * ·) ix y.dims) hr).1 ⟨b1, by rw [hrd]; exact b2⟩
      have hbc : ∀ jx, InRange jx y.dims → b.cell jx = r.cell (kronIx y.dims ix jx) := by
        intro jx hjx
        rw [(hbr.2 jx (by rw [hbd]; exact hjx)).2]
        exact congrArg r.cell (b3 jx hjx)
      have hxc : m1 (x.cell ix) = some (X ix) := by
        rw [hm1]
        · exact hX ix hix
        · rintro ix' hix' _ ⟨jx, hjx, e⟩
          exact hrx _ _ (by rw [hrd]; exact k1 ix' jx (mem_allIndices.1 hix') hjx) hix e.symm
      have hyc : ∀ jx, InRange jx y.dims → m1 (y.cell jx) = some (Y jx) := by
        intro jx hjx
        rw [hm1]
        · exact hY jx hjx
        · rintro ix' hix' _ ⟨jx', hjx', e⟩
          exact hry _ _ (by rw [hrd]; exact k1 ix' jx' (mem_allIndices.1 hix') hjx') hjx e.symm
      have hrc : ∀ jx, InRange jx y.dims → m1 (b.cell jx) = some (R (kronIx y.dims ix jx)) := by
        intro jx hjx
        rw [hbc jx hjx, hm1]
        · exact hR _ (by rw [hrd]; exact k1 ix jx hix hjx)
        · rintro ix' hix' hne ⟨jx', hjx', e⟩
          rw [mem_allIndices] at hix'
          have := hdist _ _ (by rw [hrd]; exact k1 ix jx hix hjx) (by rw [hrd]; exact k1 ix' jx' hix' hjx') e
          exact hne (k2 ix jx ix' jx' hix hjx hix' hjx' this).1.symm
      have hbdist : b.Distinct := by
        intro jx jx' h1 h2 e
        rw [hbd] at h1 h2
        rw [hbc jx h1, hbc jx' h2] at e
        have := hdist _ _ (by rw [hrd]; exact k1 ix jx hix h1) (by rw [hrd]; exact k1 ix jx' hix h2) e
        exact (k2 ix jx ix jx' hix h1 hix h2 this).2
      obtain ⟨m2, q1, q2, q3⟩ := C17_add_scaled (fun a v => a + X ix * v) b y hbr.1 hy hbd hbdist
        (by
          intro jx jx' h1 h2 e
          rw [hbd] at h1
          rw [hbc jx h1] at e
          exact absurd e (hry _ _ (by rw [hrd]; exact k1 ix jx hix h1) h2))
        m1 (by intro jx hjx; rw [hbd] at hjx; rw [hrc jx hjx]; rfl)
        (by intro jx hjx; rw [hyc jx hjx]; rfl)
      refine ⟨m2, ?_, ?_, ?_⟩
      · simp only [tprodBody, hb, Res.ok_bind, Buf.read, hxc]
        exact q1
      · rintro c ⟨jx, hjx, rfl⟩
        have hq := q2 jx (by rw [hbd]; exact hjx)
        rw [hbc jx hjx] at hq
        rw [hq]
        have hr0 := hR _ (by rw [hrd]; exact k1 ix jx hix hjx)
        simp only [View.val] at hr0
        simp only [View.val, hrc jx hjx, hyc jx hjx, hr0]
        have hfind : (allIndices y.dims).find? (fun jx' => r.cell (kronIx y.dims ix jx') = r.cell (kronIx y.dims ix jx)) = some jx := by
          cases hf : (allIndices y.dims).find? (fun jx' => r.cell (kronIx y.dims ix jx') = r.cell (kronIx y.dims ix jx)) with
          | none =>
            rw [List.find?_eq_none] at hf
            exact absurd (decide_eq_true rfl) (hf jx (mem_allIndices.2 hjx))
          | some jx' =>
            have p1 := List.find?_some hf
            have p2 := mem_allIndices.1 (List.mem_of_find?_eq_some hf)
            simp only [decide_eq_true_eq] at p1
            have := hdist _ _ (by rw [hrd]; exact k1 ix jx' hix p2) (by rw [hrd]; exact k1 ix jx hix hjx) p1
            rw [(k2 ix jx' ix jx hix p2 hix hjx this).2]
        simp [hfind]
      · intro c hc
        apply q3
        intro jx hjx e
        rw [hbd] at hjx
        exact hc ⟨jx, hjx, by rw [e, hbc jx hjx]⟩)
  refine ⟨m', g1, ?_, ?_⟩
  · intro ix jx hix hjx
    have hq := g2 ix (mem_allIndices.2 hix) _ ⟨jx, hjx, rfl⟩
    have hr0 := hR _ (by rw [hrd]; exact k1 ix jx hix hjx)
    simp only [View.val] at hr0 ⊢
    rw [hq, hr0]
    have hfind : (allIndices y.dims).find? (fun jx' => r.cell (kronIx y.dims ix jx') = r.cell (kronIx y.dims ix jx)) = some jx := by
      cases hf : (allIndices y.dims).find? (fun jx' => r.cell (kronIx y.dims ix jx') = r.cell (kronIx y.dims ix jx)) with
      | none =>
        rw [List.find?_eq_none] at hf
        exact absurd (decide_eq_true rfl) (hf jx (mem_allIndices.2 hjx))
      | some jx' =>
        have p1 := List.find?_some hf
        have p2 := mem_allIndices.1 (List.mem_of_find?_eq_some hf)
        simp only [decide_eq_true_eq] at p1
        have := hdist _ _ (by rw [hrd]; exact k1 ix jx' hix p2) (by rw [hrd]; exact k1 ix jx hix hjx) p1
        rw [(k2 ix jx' ix jx hix p2 hix hjx this).2]
    simp [hfind]
  · intro c hc
    apply g3
    rintro ix hix ⟨jx, hjx, e⟩
    exact hc _ (by rw [hrd]; exact k1 ix jx (mem_allIndices.1 hix) hjx) e

/-- Ranks that differ are refused; equal ranks above 3 (and rank 0) do nothing. -/
theorem C22_tprod_other_ranks [Add α] [Mul α] (r x y : View) (m : Buf α) :
    (x.dims.length ≠ y.dims.length → addTprod r x y m = .throw) ∧
    (x.dims.length = y.dims.length → (x.dims.length = 0 ∨ 3 < x.dims.length) → addTprod r x y m = .ok m) := by
  constructor
  · intro h; simp [addTprod, h]
  · intro hl h
    unfold addTprod
    simp only [hl, decide_true, Res.assrt_true, Res.ok_bind]
    match hxd : x.dims, hyd : y.dims with
    | [], _ => rfl
    | _ :: _ :: _ :: _ :: _, _ => rfl
    | [_], _ | [_, _], _ | [_, _, _], _ => rw [hxd] at h; simp at h

example : (addTprod ⟨0, [4], [1]⟩ ⟨4, [2], [1]⟩ ⟨6, [2], [1]⟩ (Buf.ofList [0, 0, 0, (1 : Int), 2, 3, 5, 7])).bind
    (fun m => .ok ((List.range 4).map m)) = .ok [some 10, some 14, some 15, some 22] := by decide
example : (addTprod ⟨0, [2, 2], [2, 1]⟩ ⟨4, [2, 1], [1, 1]⟩ ⟨6, [1, 2], [1, 1]⟩
    (Buf.ofList [0, 0, 0, (1 : Int), 2, 3, 5, 7])).bind
    (fun m => .ok ((List.range 4).map m)) = .ok [some 10, some 14, some 15, some 22] := by decide
example : (⟨0, [4], [1]⟩ : View).Distinct ∧ (⟨0, [4], [1]⟩ : View).Apart ⟨4, [2], [1]⟩ ∧
    (⟨0, [4], [1]⟩ : View).Apart ⟨6, [2], [1]⟩ := by decide
example : kronIx [2, 5] [1, 1] [0, 3] = [2, 8] := rfl

end Cnine
