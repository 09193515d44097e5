import Verif.Props.Mat
import Verif.Props.Visit
import Verif.Model.Flat

/-! # C80-C85: element-wise products, axis sums, broadcasts, column operations -/

namespace Cnine

open View

variable {α : Type _}

/-! ## C80 -/

theorem upd3_core (op : α → α → α → α) (r x y : View) (hxd : r.dims = x.dims) (hyd : r.dims = y.dims)
    (hdist : r.Distinct) (hx : r.Aligned x) (hy : r.Aligned y) (m : Buf α) (hra : r.Alloc m) (hxa : x.Alloc m)
    (hya : y.Alloc m) :
    ∃ m', Res.forM (allIndices r.dims) m (fun m ix => do
        let a ← m.read (r.cell ix)
        let b ← m.read (x.cell ix)
        let c ← m.read (y.cell ix)
        m.write (r.cell ix) (op a b c)) = .ok m' ∧
      Updated r (fun ix => do let a ← r.val m ix; let b ← x.val m ix; let c ← y.val m ix; pure (op a b c)) m m' := by
  have hstep : ∀ (m : Buf α) (p q s : Nat), (do
        let a ← m.read p
        let b ← m.read q
        let c ← m.read s
        m.write p (op a b c)) = stepW m p (do let a ← m p; let b ← m q; let c ← m s; pure (op a b c)) := by
    intro m p q s
    unfold stepW Buf.read
    cases m p with
    | none => rfl
    | some a => cases m q with
      | none => rfl
      | some b => cases m s <;> rfl
  obtain ⟨m', h1, h2, h3⟩ := runW_spec (allIndices r.dims) r.cell
    (fun ix m => do let a ← m (r.cell ix); let b ← m (x.cell ix); let c ← m (y.cell ix); pure (op a b c)) m
    (cells_nodup r hdist) (fun ix hix => hra ix (mem_allIndices.1 hix))
    (fun ix hix => by
      have hix := mem_allIndices.1 hix
      obtain ⟨a, ha⟩ := Option.isSome_iff_exists.1 (hra ix hix)
      obtain ⟨b, hb⟩ := Option.isSome_iff_exists.1 (hxa ix (hxd ▸ hix))
      obtain ⟨c, hc⟩ := Option.isSome_iff_exists.1 (hya ix (hyd ▸ hix))
      simp [ha, hb, hc])
    (fun ix hix m' h => by
      have hix := mem_allIndices.1 hix
      have e1 : m' (r.cell ix) = m (r.cell ix) := h _ fun j _ hj => hj.symm
      have e2 : m' (x.cell ix) = m (x.cell ix) := h _ fun j hj hne e =>
        hne (by rw [hx j ix (mem_allIndices.1 hj) (hxd ▸ hix) e.symm])
      have e3 : m' (y.cell ix) = m (y.cell ix) := h _ fun j hj hne e =>
        hne (by rw [hy j ix (mem_allIndices.1 hj) (hyd ▸ hix) e.symm])
      simp only [e1, e2, e3])
  refine ⟨m', ?_, fun ix hix => h2 ix (mem_allIndices.2 hix), fun c hc => h3 c ?_⟩
  · simp only [hstep]; exact h1
  · intro h
    obtain ⟨ix, hix, e⟩ := List.mem_map.1 h
    exact hc ix (mem_allIndices.1 hix) e.symm

/-- `r.add_prod(x,y)` (`op a b c = a+b*c`; `x`,`y` may be `r` itself): every element becomes
`op r x y` of the former elements, other cells unchanged, on both internal paths and for all strides. -/
theorem C80_add_prod (op : α → α → α → α) (r x y : View) (hr : r.WF) (hxw : x.WF) (hyw : y.WF)
    (hxd : r.dims = x.dims) (hyd : r.dims = y.dims)
    (hdist : r.Distinct) (hx : r.Aligned x) (hy : r.Aligned y) (m : Buf α) (hra : r.Alloc m) (hxa : x.Alloc m)
    (hya : y.Alloc m) :
    ∃ m', addProd op r x y m = .ok m' ∧
      Updated r (fun ix => do let a ← r.val m ix; let b ← x.val m ix; let c ← y.val m ix; pure (op a b c)) m m' := by
  obtain ⟨m', h1, h2⟩ := upd3_core op r x y hxd hyd hdist hx hy m hra hxa hya
  refine ⟨m', ?_, h2⟩
  rw [← h1]
  obtain ⟨a, ha⟩ := isRegular_ok r hr
  obtain ⟨b, hb⟩ := isRegular_ok x hxw
  obtain ⟨c, hc⟩ := isRegular_ok y hyw
  unfold addProd
  rw [ha, hb, hc, Res.ok_bind, Res.ok_bind, Res.ok_bind]
  dsimp only
  split
  · rename_i h
    obtain ⟨rfl, rfl, rfl, -, -⟩ := h
    rw [asize_eq, loop, ← map_position_allIndices, forM_map]
    apply forM_congr
    intro ix hix m
    have hix := mem_allIndices.1 hix
    rw [regular_cells r ha ix hix, regular_cells x hb ix (hxd ▸ hix), regular_cells y hc ix (hyd ▸ hix), ← hxd, ← hyd]
  · rename_i h
    have hne : r.dims ≠ [] := by
      intro h0
      apply h
      have e : isRegular ([] : List Nat) [] = .ok true := rfl
      have hx0 : x.dims = [] := hxd ▸ h0
      have hy0 : y.dims = [] := hyd ▸ h0
      rw [h0, strides_nil hr h0, e] at ha
      rw [hx0, strides_nil hxw hx0, e] at hb
      rw [hy0, strides_nil hyw hy0, e] at hc
      cases ha; cases hb; cases hc
      exact ⟨rfl, rfl, rfl, by rw [strides_nil hr h0, strides_nil hxw hx0], by rw [strides_nil hr h0, strides_nil hyw hy0]⟩
    rw [forEachIx_eq r hr hne]
    apply forM_congr
    intro ix hix m
    have hl := (mem_allIndices.1 hix).length
    have e1 : x.strides.length = x.dims.length := hxw
    have e2 : y.strides.length = y.dims.length := hyw
    rw [addr_eq x ix (by rw [e1, ← hxd]; omega), addr_eq y ix (by rw [e2, ← hyd]; omega)]
    rfl

example : (addProd (fun a b c => a + b * c) ⟨0, [2, 2], [2, 1]⟩ ⟨4, [2, 2], [1, 2]⟩ ⟨4, [2, 2], [2, 1]⟩
    (Buf.ofList [1, 1, 1, 1, 2, 3, 5, 7])).bind (fun m => .ok ((List.range 4).map m)) =
    .ok [some 5, some 16, some 16, some 50] := by decide

/-! ## C81 -/

/-- `r.add_sum(d,x)`: every element of `r` gains the sum over axis `d` of `x`; nothing else changes.
Missing: results all of whose strides are zero (the defect of `C17_add_zero_strides_fails`). -/
theorem C81_add_sum_partial [AddCommMonoid α] (r x : View) (d : Nat) (hr : r.WF) (hx : x.WF)
    (hd : d < x.dims.length) (hrd : r.dims = x.dims.eraseIdx d) (hs : ∀ s ∈ r.strides, s < intMax)
    (hz : r.strides = [] ∨ ∃ s ∈ r.strides, s ≠ 0) (hdist : r.Distinct) (hap : r.Apart x) (m : Buf α)
    (R X : List Nat → α) (hR : ∀ ix, InRange ix r.dims → r.val m ix = some (R ix))
    (hX : ∀ ix, InRange ix x.dims → x.val m ix = some (X ix)) :
    ∃ m', addSum r d x m = .ok m' ∧
      Updated r (fun ix => some (R ix + ((List.range x.dims[d]).map fun i => X (ix.take d ++ i :: ix.drop d)).sum)) m m' := by
  have key : ∀ k, k ≤ x.dims[d] → ∃ m', Res.forM (List.range k) m (fun m i => do
        let s ← x.slice d i
        addView (· + ·) r s m) = .ok m' ∧
      Updated r (fun ix => some (R ix + ((List.range k).map fun i => X (ix.take d ++ i :: ix.drop d)).sum)) m m' := by
    intro k
    induction k with
    | zero =>
      intro _
      refine ⟨m, rfl, fun ix hix => ?_, fun _ _ => rfl⟩
      have := hR ix hix
      simp only [View.val] at this
      simp [this]
    | succ k ih =>
      intro hk
      obtain ⟨m1, h1, h2, h3⟩ := ih (by omega)
      obtain ⟨s, e1, e2, e3⟩ := C13_slice x d k hx hd (by omega)
      have hsx : ∀ ix, InRange ix s.dims → m1 (s.cell ix) = some (X (ix.take d ++ k :: ix.drop d)) := by
        intro ix hix
        obtain ⟨g1, g2⟩ := e3.2 ix hix
        rw [g2, h3 _ fun jx hjx => (hap jx _ hjx g1).symm]
        exact hX _ g1
      obtain ⟨m2, q1, q2, q3⟩ := C17_add_partial (· + ·) r s hr e3.1 (by rw [hrd, e2]) hs hz hdist
        (by
          intro ix jx h4 h5 e
          obtain ⟨g1, g2⟩ := e3.2 jx h5
          rw [g2] at e
          exact absurd e (hap ix _ h4 g1))
        m1 (by intro ix hix; rw [h2 ix hix]; rfl) (by intro ix hix; rw [hsx ix hix]; rfl)
      refine ⟨m2, ?_, ?_, ?_⟩
      · rw [List.range_succ, Res.forM_append, h1, Res.ok_bind, Res.forM_cons, e1, Res.ok_bind, q1]
        rfl
      · intro ix hix
        rw [q2 ix hix]
        have a1 := h2 ix hix
        have a2 := hsx ix (by rw [e2, ← hrd]; exact hix)
        simp only [View.val, a1, a2]
        simp [List.range_succ, add_assoc]
      · intro c hc
        rw [q3 c hc, h3 c hc]
  obtain ⟨m', h1, h2⟩ := key _ (Nat.le_refl _)
  refine ⟨m', ?_, h2⟩
  unfold addSum
  simp only [hd, decide_true, Res.assrt_true, Res.ok_bind, Res.get, List.getElem?_eq_getElem hd, loop]
  exact h1

/-- An axis number beyond the rank is refused. -/
theorem C81_add_sum_refuses [Add α] (r x : View) (d : Nat) (hd : x.dims.length ≤ d) (m : Buf α) :
    addSum r d x m = .throw := by
  simp [addSum, Nat.not_lt.2 hd]

example : (addSum ⟨0, [2], [1]⟩ 1 ⟨2, [2, 3], [3, 1]⟩ (Buf.ofList [10, (20 : Int), 1, 2, 3, 4, 5, 6])).bind
    (fun m => .ok (m 0, m 1)) = .ok (some 16, some 35) := by decide

/-! ## C82 -/

/-- `r.add_broadcast(d,x)` is expected to add `x` at every position of axis `d`.  The exact behaviour for
`d=0`: row 0 gains `x` as many times as axis 0 is long, and no other cell changes. -/
theorem C82_add_broadcast_actual [AddCommMonoid α] (r x : View) (n : Nat) (ds : List Nat) (hr : r.WF) (hx : x.WF)
    (hrd : r.dims = n :: ds) (hn : 0 < n) (hxd : x.dims = ds) (hs : ∀ s ∈ r.strides, s < intMax)
    (hz : r.strides.tail = [] ∨ ∃ s ∈ r.strides.tail, s ≠ 0) (hdist : r.Distinct) (hap : r.Apart x) (m : Buf α)
    (R X : List Nat → α) (hR : ∀ ix, InRange ix r.dims → r.val m ix = some (R ix))
    (hX : ∀ ix, InRange ix x.dims → x.val m ix = some (X ix)) :
    ∃ m', addBroadcast r 0 x m = .ok m' ∧
      (∀ ix, InRange ix ds → r.val m' (0 :: ix) = some (R (0 :: ix) + n • X ix)) ∧
      ∀ c, (∀ ix, InRange ix ds → c ≠ r.cell (0 :: ix)) → m' c = m c := by
  obtain ⟨s, e1, e2, e3⟩ := C13_slice_prefix r [0] hr (by rw [hrd]; simp) (by rw [hrd]; simpa [InRange] using hn)
  rw [hrd] at e2
  simp only [List.length_cons, List.length_nil, List.drop_succ_cons, List.drop_zero, Nat.zero_add] at e2
  have hsc : ∀ ix, InRange ix ds → s.cell ix = r.cell (0 :: ix) := fun ix h => (e3.2 ix (by rw [e2]; exact h)).2
  have hin : ∀ ix, InRange ix ds → InRange (0 :: ix) r.dims := fun ix h => by rw [hrd]; exact inRange_cons.2 ⟨hn, h⟩
  have hss : s.strides = r.strides.tail := by
    have hr' : r.strides.length = r.dims.length := hr
    rw [hrd] at hr'
    cases hst : r.strides with
    | nil => rw [hst] at hr'; simp at hr'
    | cons a t =>
      have : r.sliceIx [0] = .ok ⟨r.off + 0, ds, t⟩ := by
        rw [hst] at hr'
        simp only [sliceIx, gvChunk, hst, hrd]
        simp [offs] at hr' ⊢
        rw [if_neg (by omega), if_neg (by omega), if_neg (by omega), if_neg (by omega), if_neg (by omega)]
        simp [offsLoop]
      rw [this] at e1
      cases e1
      rfl
  have key : ∀ k, ∃ m', Res.forM (List.range k) m (fun m _ => do
        let s ← r.sliceIx [0]
        addView (· + ·) s x m) = .ok m' ∧
      (∀ ix, InRange ix ds → m' (s.cell ix) = some (R (0 :: ix) + k • X ix)) ∧
      ∀ c, (∀ ix, InRange ix ds → c ≠ s.cell ix) → m' c = m c := by
    intro k
    induction k with
    | zero =>
      refine ⟨m, rfl, fun ix hix => ?_, fun _ _ => rfl⟩
      have := hR _ (hin ix hix)
      simp only [View.val] at this
      rw [hsc ix hix, this, zero_nsmul, add_zero]
    | succ k ih =>
      obtain ⟨m1, h1, h2, h3⟩ := ih
      have hmx : ∀ ix, InRange ix x.dims → m1 (x.cell ix) = some (X ix) := by
        intro ix hix
        rw [h3 _ fun jx hjx => by rw [hsc jx hjx]; exact (hap _ _ (hin jx hjx) hix).symm]
        exact hX ix hix
      obtain ⟨m2, q1, q2, q3⟩ := C17_add_partial (· + ·) s x e3.1 hx (by rw [e2, hxd])
        (by rw [hss]; exact fun a ha => hs a (List.mem_of_mem_tail ha)) (by rw [hss]; exact hz)
        (by
          intro ix jx h4 h5 e
          rw [e2] at h4 h5
          rw [hsc ix h4, hsc jx h5] at e
          simpa using hdist _ _ (hin ix h4) (hin jx h5) e)
        (by
          intro ix jx h4 h5 e
          rw [e2] at h4
          rw [hsc ix h4] at e
          exact absurd e (hap _ _ (hin ix h4) h5))
        m1 (by intro ix hix; rw [e2] at hix; rw [h2 ix hix]; rfl) (by intro ix hix; rw [hmx ix hix]; rfl)
      refine ⟨m2, ?_, ?_, ?_⟩
      · rw [List.range_succ, Res.forM_append, h1, Res.ok_bind, Res.forM_cons, e1, Res.ok_bind, q1]
        rfl
      · intro ix hix
        rw [q2 ix (by rw [e2]; exact hix)]
        simp only [View.val, h2 ix hix, hmx ix (by rw [hxd]; exact hix)]
        simp [succ_nsmul, add_assoc]
      · intro c hc
        rw [q3 c fun ix hix => hc ix (by rw [e2] at hix; exact hix), h3 c hc]
  obtain ⟨m', h1, h2, h3⟩ := key n
  refine ⟨m', ?_, ?_, ?_⟩
  · unfold addBroadcast
    simp only [hrd, List.length_cons, Nat.zero_lt_succ, decide_true, Res.assrt_true, Res.ok_bind, Res.get,
      List.getElem?_cons_zero, loop]
    exact h1
  · intro ix hix
    rw [View.val, ← hsc ix hix]
    exact h2 ix hix
  · intro c hc
    exact h3 c fun ix hix => by rw [hsc ix hix]; exact hc ix hix

/-- The expected broadcast holds when axis 0 has extent 1 (and `d=0`).  Missing: everything else, see
`C82_add_broadcast_fails`. -/
theorem C82_add_broadcast_partial [AddCommMonoid α] (r x : View) (ds : List Nat) (hr : r.WF) (hx : x.WF)
    (hrd : r.dims = 1 :: ds) (hxd : x.dims = ds) (hs : ∀ s ∈ r.strides, s < intMax)
    (hz : r.strides.tail = [] ∨ ∃ s ∈ r.strides.tail, s ≠ 0) (hdist : r.Distinct) (hap : r.Apart x) (m : Buf α)
    (R X : List Nat → α) (hR : ∀ ix, InRange ix r.dims → r.val m ix = some (R ix))
    (hX : ∀ ix, InRange ix x.dims → x.val m ix = some (X ix)) :
    ∃ m', addBroadcast r 0 x m = .ok m' ∧
      ∀ i ix, InRange (i :: ix) r.dims → r.val m' (i :: ix) = some (R (i :: ix) + X ix) := by
  obtain ⟨m', h1, h2, -⟩ := C82_add_broadcast_actual r x 1 ds hr hx hrd (by omega) hxd hs hz hdist hap m R X hR hX
  refine ⟨m', h1, fun i ix h => ?_⟩
  rw [hrd, inRange_cons] at h
  have : i = 0 := by omega
  subst this
  rw [h2 ix h.2, one_nsmul]

/-- Broadcasting `[1,2]` over the rows of a 2×2 zero matrix gives `[[2,4],[0,0]]`; over the columns it
also hits a single row. -/
theorem C82_add_broadcast_fails :
    (∃ m', addBroadcast ⟨0, [2, 2], [2, 1]⟩ 0 ⟨4, [2], [1]⟩ (Buf.ofList [0, 0, 0, (0 : Int), 1, 2]) = .ok m' ∧
      (List.range 4).map m' = [some 2, some 4, some 0, some 0]) ∧
    (∃ m', addBroadcast ⟨0, [2, 2], [2, 1]⟩ 1 ⟨4, [2], [1]⟩ (Buf.ofList [0, 0, 0, (0 : Int), 1, 2]) = .ok m' ∧
      (List.range 4).map m' = [some 0, some 0, some 2, some 4]) :=
  ⟨⟨_, rfl, by decide⟩, ⟨_, rfl, by decide⟩⟩

example : (⟨0, [1, 2], [2, 1]⟩ : View).Distinct ∧ (⟨0, [1, 2], [2, 1]⟩ : View).Apart ⟨4, [2], [1]⟩ := by decide

/-! ## C83 -/

/-- `add_scale_columns`, `add_mul_columns`, `add_div_columns` (`op a b c = a+b*c` etc.) on row-major
matrices `r`, `x` and a stride-1 vector `y`: `r_{ij}` becomes `op r_{ij} x_{ij} y_j`, nothing else
changes.  Missing: other strides are ignored by the code, see `C83_columns_strided_fails`. -/
theorem C83_columns_partial (op : α → α → α → α) (ro xo yo n nc : Nat) (m : Buf α)
    (hrx : (⟨ro, [n, nc], [nc, 1]⟩ : View).Aligned ⟨xo, [n, nc], [nc, 1]⟩)
    (hry : (⟨ro, [n, nc], [nc, 1]⟩ : View).Apart ⟨yo, [nc], [1]⟩)
    (R X : Nat → Nat → α) (Y : Nat → α)
    (hR : ∀ i j, i < n → j < nc → (⟨ro, [n, nc], [nc, 1]⟩ : View).val m [i, j] = some (R i j))
    (hX : ∀ i j, i < n → j < nc → (⟨xo, [n, nc], [nc, 1]⟩ : View).val m [i, j] = some (X i j))
    (hY : ∀ j, j < nc → (⟨yo, [nc], [1]⟩ : View).val m [j] = some (Y j)) :
    ∃ m', addMulColumns op ⟨ro, [n, nc], [nc, 1]⟩ ⟨xo, [n, nc], [nc, 1]⟩ ⟨yo, [nc], [1]⟩ m = .ok m' ∧
      (∀ i j, i < n → j < nc → (⟨ro, [n, nc], [nc, 1]⟩ : View).val m' [i, j] = some (op (R i j) (X i j) (Y j))) ∧
      ∀ c, (∀ i j, i < n → j < nc → c ≠ (⟨ro, [n, nc], [nc, 1]⟩ : View).cell [i, j]) → m' c = m c := by
  have hc : ∀ o i j, (⟨o, [n, nc], [nc, 1]⟩ : View).cell [i, j] = o + (i * nc + j) := by
    intro o i j; simp [View.cell, Nat.mul_comm nc i]
  have hcy : ∀ j, (⟨yo, [nc], [1]⟩ : View).cell [j] = yo + j := by intro j; simp [View.cell]
  have hinj : ∀ i j i' j', i < n → j < nc → i' < n → j' < nc →
      (⟨ro, [n, nc], [nc, 1]⟩ : View).cell [i, j] = (⟨ro, [n, nc], [nc, 1]⟩ : View).cell [i', j'] → i = i' ∧ j = j' := by
    intro i j i' j' hi hj hi' hj' e
    rw [hc, hc] at e
    exact divmod_inj hj hj' (Nat.add_left_cancel e)
  obtain ⟨m', h1, h2, h3⟩ := forM_regions (allIndices [n, nc]) (fun m ix => do
      let a ← m.read (ro + (ix.getD 0 0 * nc + ix.getD 1 0))
      let b ← m.read (xo + (ix.getD 0 0 * nc + ix.getD 1 0))
      let c ← m.read (yo + ix.getD 1 0)
      m.write (ro + (ix.getD 0 0 * nc + ix.getD 1 0)) (op a b c))
    (fun ix c => c = (⟨ro, [n, nc], [nc, 1]⟩ : View).cell ix)
    (fun ix _ => some (op (R (ix.getD 0 0) (ix.getD 1 0)) (X (ix.getD 0 0) (ix.getD 1 0)) (Y (ix.getD 1 0)))) m
    (allIndices_nodup _)
    (by
      rintro ix hix jx hjx hne c rfl e
      rw [mem_allIndices] at hix hjx
      obtain ⟨i, j, rfl⟩ := List.length_eq_two.1 hix.length
      obtain ⟨i', j', rfl⟩ := List.length_eq_two.1 hjx.length
      rw [inRange2] at hix hjx
      obtain ⟨rfl, rfl⟩ := hinj i j i' j' hix.1 hix.2 hjx.1 hjx.2 e
      exact hne rfl)
    (by
      intro ix hix m1 hm1
      rw [mem_allIndices] at hix
      obtain ⟨i, j, rfl⟩ := List.length_eq_two.1 hix.length
      have hij := inRange2.1 hix
      have e1 : m1 (ro + (i * nc + j)) = some (R i j) := by
        rw [← hc, hm1]
        · exact hR i j hij.1 hij.2
        · intro jx hjx hne e
          rw [mem_allIndices] at hjx
          obtain ⟨i', j', rfl⟩ := List.length_eq_two.1 hjx.length
          rw [inRange2] at hjx
          obtain ⟨rfl, rfl⟩ := hinj i j i' j' hij.1 hij.2 hjx.1 hjx.2 e
          exact hne rfl
      have e2 : m1 (xo + (i * nc + j)) = some (X i j) := by
        rw [← hc, hm1]
        · exact hX i j hij.1 hij.2
        · intro jx hjx hne e
          exact hne (hrx jx [i, j] (mem_allIndices.1 hjx) hix e.symm)
      have e3 : m1 (yo + j) = some (Y j) := by
        rw [← hcy, hm1]
        · exact hY j hij.2
        · intro jx hjx _ e
          exact hry jx [j] (mem_allIndices.1 hjx) (inRange1.2 hij.2) e.symm
      refine ⟨fun c => if c = ro + (i * nc + j) then some (op (R i j) (X i j) (Y j)) else m1 c, ?_, ?_, ?_⟩
      · simp [Buf.read, Buf.write, e1, e2, e3]
      · rintro c rfl; simp [hc]
      · intro c h; rw [hc] at h; simp [h])
  refine ⟨m', ?_, ?_, ?_⟩
  · rw [← h1, ← loops2 n nc m (fun ix m => do
      let a ← m.read (ro + (ix.getD 0 0 * nc + ix.getD 1 0))
      let b ← m.read (xo + (ix.getD 0 0 * nc + ix.getD 1 0))
      let c ← m.read (yo + ix.getD 1 0)
      m.write (ro + (ix.getD 0 0 * nc + ix.getD 1 0)) (op a b c))]
    simp [addMulColumns, Res.get]
  · intro i j hi hj
    exact h2 [i, j] (mem_allIndices.2 (inRange2.2 ⟨hi, hj⟩)) _ rfl
  · intro c h
    apply h3
    intro ix hix
    rw [mem_allIndices] at hix
    obtain ⟨i, j, rfl⟩ := List.length_eq_two.1 hix.length
    have hij := inRange2.1 hix
    exact h i j hij.1 hij.2

/-- With a transposed `x` the wrong elements are multiplied: `r_{01}` gains `x_{10}` instead of `x_{01}`. -/
theorem C83_columns_strided_fails :
    ∃ (r x y : View) (m m' : Buf Int), r.WF ∧ x.WF ∧ y.WF ∧ r.Alloc m ∧ x.Alloc m ∧ y.Alloc m ∧ r.Distinct ∧
      r.Apart x ∧ r.Apart y ∧ addMulColumns (fun a b c => a + b * c) r x y m = .ok m' ∧
      r.val m [0, 1] = some 0 ∧ x.val m [0, 1] = some 3 ∧ y.val m [1] = some 1 ∧ r.val m' [0, 1] = some 2 :=
  ⟨⟨0, [2, 2], [2, 1]⟩, ⟨4, [2, 2], [1, 2]⟩, ⟨8, [2], [1]⟩, Buf.ofList [0, 0, 0, 0, 1, 2, 3, 4, 1, 1], _,
    by decide, by decide, by decide, by decide, by decide, by decide, by decide, by decide, by decide, rfl,
    by decide, by decide, by decide, by decide⟩

example : (⟨0, [2, 2], [2, 1]⟩ : View).Aligned ⟨4, [2, 2], [2, 1]⟩ ∧ (⟨0, [2, 2], [2, 1]⟩ : View).Apart ⟨8, [2], [1]⟩ := by
  decide

/-! ## C84 -/

/-- `r.add_column_inps_XC(x,y)` overwrites `r_i` with `Σ_j x_{ji} y_{ji}` (exact behaviour). -/
theorem C84_column_inps_actual [NonUnitalNonAssocSemiring α] (r x y : View) (n nc : Nat) (hr : r.WF) (hx : x.WF)
    (hy : y.WF) (hrd : r.dims = [nc]) (hxd : x.dims = [n, nc]) (hyd : y.dims = [n, nc]) (hdist : r.Distinct)
    (hra : ∀ i, i < nc → (r.val m [i]).isSome)
    (hrx : r.Apart x) (hry : r.Apart y) (X Y : Nat → Nat → α)
    (hX : ∀ j i, j < n → i < nc → x.val m [j, i] = some (X j i))
    (hY : ∀ j i, j < n → i < nc → y.val m [j, i] = some (Y j i)) :
    ∃ m', addColumnInps r x y m = .ok m' ∧
      (∀ i, i < nc → r.val m' [i] = some ((List.range n).map fun j => X j i * Y j i).sum) ∧
      ∀ c, (∀ i, i < nc → c ≠ r.cell [i]) → m' c = m c := by
  obtain ⟨s, hs⟩ := strides1 hr hrd
  obtain ⟨xs, xt, hxs⟩ := strides2 hx hxd
  obtain ⟨ys, yt, hys⟩ := strides2 hy hyd
  have hinj : ∀ i j, i < nc → j < nc → r.cell [i] = r.cell [j] → i = j := by
    intro i j hi hj e
    have := hdist [i] [j] (by rw [hrd]; exact inRange1.2 hi) (by rw [hrd]; exact inRange1.2 hj) e
    simpa using this
  obtain ⟨m', h1, h2, h3⟩ := forM_regions (List.range nc) (fun m i => do
      let t ← loop n (0 : α) fun j t => do
        let a ← x.at2 j i
        let p ← m.read a
        let b ← y.at2 j i
        let q ← m.read b
        .ok (t + p * q)
      let c ← r.at1 i
      m.write c t) (fun i c => c = r.cell [i])
    (fun i _ => some ((List.range n).map fun j => X j i * Y j i).sum) m List.nodup_range
    (by
      rintro i hi j hj hij c rfl e
      exact hij (hinj i j (List.mem_range.1 hi) (List.mem_range.1 hj) e))
    (by
      intro i hi m1 hm1
      have hi' := List.mem_range.1 hi
      obtain ⟨a, ha⟩ := Option.isSome_iff_exists.1 (hra i hi')
      have hmi : m1 (r.cell [i]) = some a := by
        rw [hm1 _ fun j hj hji e => hji (hinj j i (List.mem_range.1 hj) hi' e.symm)]
        exact ha
      refine ⟨fun c => if c = r.cell [i] then some ((List.range n).map fun j => X j i * Y j i).sum else m1 c, ?_, ?_, ?_⟩
      · rw [loop_sum n 0 _ (fun j => X j i * Y j i) (by
          intro j hj t
          have hin : ∀ {v : View}, v.dims = [n, nc] → InRange [j, i] v.dims := fun h => by
            rw [h]; exact inRange2.2 ⟨hj, hi'⟩
          have e1 : m1 (x.cell [j, i]) = some (X j i) := by
            rw [hm1 _ fun k hk _ => (hrx [k] [j, i] (by rw [hrd]; exact inRange1.2 (List.mem_range.1 hk)) (hin hxd)).symm]
            exact hX j i hj hi'
          have e2 : m1 (y.cell [j, i]) = some (Y j i) := by
            rw [hm1 _ fun k hk _ => (hry [k] [j, i] (by rw [hrd]; exact inRange1.2 (List.mem_range.1 hk)) (hin hyd)).symm]
            exact hY j i hj hi'
          simp only [at2_eq x xs xt j i hxs, at2_eq y ys yt j i hys, Res.ok_bind, Buf.read, e1, e2]),
          Res.ok_bind, zero_add]
        simp only [at1_eq r s i hs, Res.ok_bind, Buf.write, hmi]
      · rintro c rfl; simp
      · intro c hc; simp [hc])
  refine ⟨m', ?_, fun i hi => h2 i (List.mem_range.2 hi) _ rfl, fun c hc => h3 c fun i hi => hc i (List.mem_range.1 hi)⟩
  rw [← h1]
  simp [addColumnInps, Res.get, hrd, hxd, loop]

/-- The name and its use as a gradient promise accumulation, which holds when `r` starts at zero.
Missing: other initial values, see `C84_column_inps_fails`. -/
theorem C84_column_inps_partial [NonUnitalNonAssocSemiring α] (r x y : View) (n nc : Nat) (hr : r.WF) (hx : x.WF)
    (hy : y.WF) (hrd : r.dims = [nc]) (hxd : x.dims = [n, nc]) (hyd : y.dims = [n, nc]) (hdist : r.Distinct)
    (hra : ∀ i, i < nc → r.val m [i] = some 0)
    (hrx : r.Apart x) (hry : r.Apart y) (X Y : Nat → Nat → α)
    (hX : ∀ j i, j < n → i < nc → x.val m [j, i] = some (X j i))
    (hY : ∀ j i, j < n → i < nc → y.val m [j, i] = some (Y j i)) :
    ∃ m', addColumnInps r x y m = .ok m' ∧
      (∀ i, i < nc → r.val m' [i] = some (0 + ((List.range n).map fun j => X j i * Y j i).sum)) ∧
      ∀ c, (∀ i, i < nc → c ≠ r.cell [i]) → m' c = m c := by
  simp only [zero_add]
  exact C84_column_inps_actual r x y n nc hr hx hy hrd hxd hyd hdist (fun i hi => by rw [hra i hi]; rfl) hrx hry X Y hX hY

/-- The former value 10 is lost. -/
theorem C84_column_inps_fails :
    ∃ (r x y : View) (m m' : Buf Int), r.WF ∧ x.WF ∧ y.WF ∧ r.Distinct ∧ r.Apart x ∧ r.Apart y ∧
      r.val m [0] = some 10 ∧ x.val m [0, 0] = some 2 ∧ y.val m [0, 0] = some 3 ∧
      addColumnInps r x y m = .ok m' ∧ r.val m' [0] = some 6 :=
  ⟨⟨0, [1], [1]⟩, ⟨1, [1, 1], [1, 1]⟩, ⟨2, [1, 1], [1, 1]⟩, Buf.ofList [10, 2, 3], _, by decide, by decide, by decide,
    by decide, by decide, by decide, by decide, by decide, by decide, rfl, by decide⟩

/-! ## C85 -/

/-- `r.add_ReLU(x,alpha)` (`f` the leaky rectifier) for views with equal strides that fill a contiguous
block: each element gains `f x`.  Missing: the code ignores strides, see `C85_relu_strided_fails`. -/
theorem C85_relu_partial [Add α] (f : α → α) (r x : View) (hr : r.WF) (hd : r.dims = x.dims)
    (hst : r.strides = x.strides) (hc : isContiguous r.strides r.dims = .ok true) (hdist : r.Distinct)
    (hal : r.Aligned x) (m : Buf α) (hra : r.Alloc m) (hxa : x.Alloc m) :
    ∃ m', addReLU f r x m = .ok m' ∧
      Updated r (fun ix => do let a ← r.val m ix; let b ← x.val m ix; pure (a + f b)) m m' := by
  unfold addReLU
  rw [asize_eq]
  by_cases hp : r.dims.prod = 0
  · rw [hp]
    refine ⟨m, rfl, fun ix hix => ?_, fun c _ => rfl⟩
    have := position_lt hix
    omega
  · obtain ⟨hperm, -⟩ := distinct_contiguous r hr (by omega) hdist hc
    have hbulk := bulk_perm r x hr hst hperm
    obtain ⟨m', h1, h2⟩ := upd_updated (fun a b => a + f b) r x hd hdist hal m hra hxa _ hbulk
    refine ⟨m', ?_, h2⟩
    rw [← h1, loop, runUpd, forM_map]

/-- With a transposed `x` the wrong elements are added. -/
theorem C85_relu_strided_fails :
    ∃ (r x : View) (m m' : Buf Int), r.WF ∧ x.WF ∧ r.dims = x.dims ∧ r.Distinct ∧ r.Apart x ∧ r.Alloc m ∧ x.Alloc m ∧
      addReLU (fun b => if b > 0 then b else 0) r x m = .ok m' ∧
      r.val m [0, 1] = some 0 ∧ x.val m [0, 1] = some 3 ∧ r.val m' [0, 1] = some 2 :=
  ⟨⟨0, [2, 2], [2, 1]⟩, ⟨4, [2, 2], [1, 2]⟩, Buf.ofList [0, 0, 0, 0, 1, 2, 3, 4], _, by decide, by decide, rfl,
    by decide, by decide, by decide, by decide, rfl, by decide, by decide, by decide⟩

/-- `add_ReLU_back(g,x,alpha)` does not depend on `x`: with `x=-1`, `g=1`, `alpha=0` the gradient of the
rectifier is 0, but 1 is added. -/
theorem C85_relu_back_fails :
    (∀ [Add α] (f : α → α) (r g x x' : View) (m : Buf α), addReLUBack f r g x m = addReLUBack f r g x' m) ∧
    ∃ (r g x : View) (m m' : Buf Int), g.val m [0] = some 1 ∧ x.val m [0] = some (-1) ∧ r.val m [0] = some 0 ∧
      addReLUBack (fun b => if b > 0 then b else 0) r g x m = .ok m' ∧ r.val m' [0] = some 1 :=
  ⟨fun _ _ _ _ _ _ => rfl, ⟨0, [1], [1]⟩, ⟨1, [1], [1]⟩, ⟨2, [1], [1]⟩, Buf.ofList [0, 1, -1], _, by decide, by decide,
    by decide, rfl, by decide⟩

example : isContiguous [1, 2] [2, 3] = .ok true ∧ (⟨0, [2, 3], [1, 2]⟩ : View).Aligned ⟨6, [2, 3], [1, 2]⟩ := by decide

end Cnine
