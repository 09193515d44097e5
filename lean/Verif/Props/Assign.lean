import Verif.Lemmas.Elem2
import Mathlib.Algebra.Ring.Defs
import Mathlib.Algebra.Ring.Int.Defs

/-! # C16, C17: assignment and addition of tensors in memory -/

namespace Cnine

open View

variable {α : Type _}

/-- Two views at the same cells: a bulk or loop path of `TensorView_assign`. -/
theorem assign_core (r x : View) (hr : r.WF) (hx : x.WF) (hd : r.dims = x.dims)
    (hs : ∀ s ∈ r.strides, s < intMax) (hz : r.strides = [] ∨ ∃ s ∈ r.strides, s ≠ 0)
    (hdist : r.Distinct) (hap : r.Apart x) (m : Buf α) (hra : r.Alloc m) (hxa : x.Alloc m) :
    ∃ m', r.assign x m = .ok m' ∧ Updated r (x.val m) m m' := by
  have hal : r.Aligned x := fun ix jx h1 h2 e => absurd e (hap ix jx h1 h2)
  have hval : ∀ m' (_ : Updated r (fun ix => do let _ ← r.val m ix; let b ← x.val m ix; pure ((fun _ b => b) () b)) m m'),
      Updated r (x.val m) m m' := by
    rintro m' ⟨h1, h2⟩
    refine ⟨fun ix hix => ?_, h2⟩
    rw [h1 ix hix]
    obtain ⟨a, ha⟩ := Option.isSome_iff_exists.1 (hra ix hix)
    have ha' : r.val m ix = some a := ha
    simp [ha']
  unfold assign
  simp only [hd, decide_true, Res.assrt_true, Res.ok_bind]
  by_cases h0 : x.dims = []
  · -- rank 0: the cell is written by `set` and again by the bulk copy
    have hrd : r.dims = [] := hd.trans h0
    have hrs : r.strides = [] := List.length_eq_zero_iff.1 (by rw [show r.strides.length = r.dims.length from hr, hrd]; rfl)
    have hxs : x.strides = [] := List.length_eq_zero_iff.1 (by rw [show x.strides.length = x.dims.length from hx, h0]; rfl)
    have hin : InRange [] r.dims := hrd ▸ inRange_nil
    have hin' : InRange [] x.dims := h0 ▸ inRange_nil
    obtain ⟨a, ha⟩ := Option.isSome_iff_exists.1 (hra [] hin)
    obtain ⟨b, hb⟩ := Option.isSome_iff_exists.1 (hxa [] hin')
    have hne := hap [] [] hin hin'
    simp only [View.cell, dot_nil_right, Nat.add_zero] at ha hb hne
    have hov : ¬ (x.off ≤ r.off ∧ r.off < x.off + 1) := by omega
    have hcc : isContiguous ([] : List Nat) [] = .ok true := rfl
    have hms : memsize ([] : List Nat) [] = .ok 1 := rfl
    refine ⟨fun c => if c = r.off then some b else m c, ?_, ?_⟩
    · simp only [h0, hrs, hxs, hcc, hms, copyCell, Buf.read, hb, Buf.write, ha, stdCopy, if_neg hov, loop,
        List.length_nil, if_true, Res.ok_bind, asize, List.foldl_nil, List.range_one, Res.forM_cons, Res.forM_nil,
        and_self, if_neg (Nat.one_ne_zero), Nat.add_zero, if_neg (Ne.symm hne)]
      congr 1
      funext c
      split <;> rfl
    · constructor
      · intro ix hix
        rw [hrd] at hix
        cases hix
        simp [View.cell, View.val, hb]
      · intro c hc
        have := hc [] hin
        simp [View.cell] at this
        simp [this]
  · have hlen : ¬ x.dims.length = 0 := by simpa using h0
    simp only [if_neg hlen, Res.ok_bind]
    by_cases hp : asize x.dims = 0
    · rw [if_pos hp]
      refine ⟨m, rfl, fun ix hix => ?_, fun c _ => rfl⟩
      exfalso
      have := mem_allIndices.2 hix
      rw [asize_eq, ← hd] at hp
      have hl := allIndices_length r.dims
      rw [hp] at hl
      rw [List.length_eq_zero_iff.1 hl] at this
      simp at this
    · rw [if_neg hp]
      rw [asize_eq, ← hd] at hp
      have hp' := Nat.pos_of_ne_zero hp
      obtain ⟨c, hc⟩ := isContiguous_ok r hr
      · rw [hd] at hc
        rw [hc]
        simp only [Res.ok_bind]
        by_cases hcs : c = true ∧ r.strides = x.strides
        · rw [if_pos hcs]
          obtain ⟨rfl, hst⟩ := hcs
          rw [← hd] at hc
          obtain ⟨hperm, hms⟩ := distinct_contiguous r hr hp' hdist hc
          have hbulk := bulk_perm r x hr hst hperm
          rw [← hd, ← hst, hms hz, Res.ok_bind]
          have hov : ¬ (x.off ≤ r.off ∧ r.off < x.off + r.dims.prod) := by
            rintro ⟨h1, h2⟩
            have m1 : (r.off + 0, x.off + 0) ∈ pairCells r x :=
              hbulk.mem_iff.1 (List.mem_map.2 ⟨0, List.mem_range.2 hp', rfl⟩)
            have m2 : (r.off + (r.off - x.off), x.off + (r.off - x.off)) ∈ pairCells r x :=
              hbulk.mem_iff.1 (List.mem_map.2 ⟨r.off - x.off, List.mem_range.2 (by omega), rfl⟩)
            simp only [pairCells, List.mem_map, Prod.mk.injEq] at m1 m2
            obtain ⟨ix, hix, e1, -⟩ := m1
            obtain ⟨jx, hjx, -, e2⟩ := m2
            exact hap ix jx (mem_allIndices.1 hix) (hd ▸ mem_allIndices.1 hjx) (by omega)
          obtain ⟨m', h1, h2⟩ := upd_updated (fun _ b => b) r x hd hdist hal m hra hxa _ hbulk
          refine ⟨m', ?_, hval m' (by simpa using h2)⟩
          rw [← h1, stdCopy, if_neg hov, loop, runUpd, forM_map]
          simp only [copyCell_eq]
        · rw [if_neg hcs]
          obtain ⟨r', x', e, hr', hx', hd', hpp⟩ := C15_co_scrunch r x hr hx hd hs
          rw [e, Res.ok_bind]
          simp only
          have hne' := coScrunch_ne r x r' x' hr hd hs (by rw [hd]; exact h0) e
          obtain ⟨m', h1, h2⟩ := upd_updated (fun _ b => b) r x hd hdist hal m hra hxa _ hpp
          refine ⟨m', ?_, hval m' (by simpa using h2)⟩
          rw [← h1]
          unfold assignLoops
          have hrl : r'.strides.length = r'.dims.length := hr'
          have hxl : x'.strides.length = r'.dims.length := by rw [hd']; exact hx'
          have hl1 : r'.strides ≠ [] := by
            intro h; rw [h] at hrl; exact hne' (List.length_eq_zero_iff.1 hrl.symm)
          have hl2 : x'.strides ≠ [] := by
            intro h; rw [h] at hxl; exact hne' (List.length_eq_zero_iff.1 hxl.symm)
          have e1 := List.getLast?_eq_some_getLast hl1
          have e2 := List.getLast?_eq_some_getLast hl2
          have e3 := List.getLast?_eq_some_getLast hne'
          unfold copyLast
          rw [e1, e2, e3]
          simp only [Res.ok_bind]
          split
          · rename_i hcl
            obtain ⟨hcl, h2', h4'⟩ := hcl
            simp only [Bool.and_eq_true, decide_eq_true_eq] at hcl
            obtain ⟨⟨g1, g2⟩, g3⟩ := hcl
            have hap' : r'.Apart x' := by
              intro ix jx h1 h2 he
              have m1 : (r'.cell ix, x'.cell ix) ∈ pairCells r' x' := List.mem_map.2 ⟨ix, mem_allIndices.2 h1, rfl⟩
              have m2 : (r'.cell jx, x'.cell jx) ∈ pairCells r' x' := List.mem_map.2 ⟨jx, mem_allIndices.2 (hd' ▸ h2), rfl⟩
              have m1 := hpp.mem_iff.1 m1
              have m2 := hpp.mem_iff.1 m2
              simp only [pairCells, List.mem_map, Prod.mk.injEq] at m1 m2
              obtain ⟨ix', hix', q1, -⟩ := m1
              obtain ⟨jx', hjx', -, q2⟩ := m2
              exact hap ix' jx' (mem_allIndices.1 hix') (hd ▸ mem_allIndices.1 hjx') (by rw [q1, q2, he])
            exact rowCopies_eq r' x' hr' hx' hd' h2' h4' hap' _ (by rw [e1, g1]) (by rw [e2, g2]) e3 (by omega) m
          · rw [pairLoops_eq _ r' x' hr' hx' hd' hne', runUpd]
            simp only [copyCell_eq]

/-! ## C16 -/

/-- After `r=x` (equal dims, `r`'s cells distinct and disjoint from `x`'s, both allocated) every element
of `r` holds the former element of `x` and every other cell is unchanged, on every internal path.
Missing: views all of whose strides are zero (see `C16_assign_zero_strides_fails`); strides must fit
`int`. -/
theorem C16_assign_partial (r x : View) (hr : r.WF) (hx : x.WF) (hd : r.dims = x.dims)
    (hs : ∀ s ∈ r.strides, s < intMax) (hz : r.strides = [] ∨ ∃ s ∈ r.strides, s ≠ 0)
    (hdist : r.Distinct) (hap : r.Apart x) (m : Buf α) (hra : r.Alloc m) (hxa : x.Alloc m) :
    ∃ m', r.assign x m = .ok m' ∧ Updated r (x.val m) m m' :=
  assign_core r x hr hx hd hs hz hdist hap m hra hxa

/-- Different dims are refused. -/
theorem C16_assign_refuses (r x : View) (hd : r.dims ≠ x.dims) (m : Buf α) : r.assign x m = .throw := by
  simp [assign, hd]

/-- Two one-element views with stride 0 (e.g. made by `insert_dim` on a scalar): the bulk path copies
`memsize() = 0` cells, so nothing is assigned. -/
theorem C16_assign_zero_strides_fails :
    ∃ (r x : View) (m : Buf Nat), r.WF ∧ x.WF ∧ r.dims = x.dims ∧ r.Distinct ∧ r.Apart x ∧ r.Alloc m ∧
      x.Alloc m ∧ r.assign x m = .ok m ∧ r.val m [0] ≠ x.val m [0] := by
  refine ⟨⟨0, [1], [0]⟩, ⟨1, [1], [0]⟩, Buf.ofList [5, 7], rfl, rfl, rfl, by decide, by decide, by decide, by decide, rfl, by decide⟩

/-- `x.copy()` into a freshly allocated block `[base, base+asize)`: the copy reads back every element of
`x` and nothing outside the block changes. -/
theorem C16_copy (x : View) (hx : x.WF) (hs : ∀ s ∈ rmStrides x.dims, s < intMax) (base : Nat) (m : Buf α)
    (hxa : x.Alloc m) (hblock : ∀ i, i < asize x.dims → (m (base + i)).isSome)
    (hfresh : ∀ ix, InRange ix x.dims → x.cell ix < base ∨ base + asize x.dims ≤ x.cell ix) :
    ∃ m', (View.mk base x.dims (rmStrides x.dims)).assign x m = .ok m' ∧
      (∀ ix, InRange ix x.dims → (View.mk base x.dims (rmStrides x.dims)).val m' ix = x.val m ix) ∧
      ∀ c, (c < base ∨ base + asize x.dims ≤ c) → m' c = m c := by
  rw [asize_eq] at *
  have hcell : ∀ ix, InRange ix x.dims →
      (View.mk base x.dims (rmStrides x.dims)).cell ix = base + position x.dims ix := by
    intro ix h
    simp [View.cell, dot_rmStrides _ _ h.length]
  obtain ⟨m', h1, h2, h3⟩ := assign_core ⟨base, x.dims, rmStrides x.dims⟩ x (by simp [WF]) hx rfl hs
    (by
      rcases List.eq_nil_or_concat x.dims with h | ⟨l, d, h⟩
      · left; simp [h]
      · right
        rw [List.concat_eq_append] at h
        simp only
        rw [h]
        refine ⟨1, ?_, by omega⟩
        clear h
        induction l with
        | nil => simp [rmStrides_cons]
        | cons e l ih => rw [List.cons_append, rmStrides_cons]; exact List.mem_cons_of_mem _ ih)
    (by
      intro ix jx h1 h2 e
      rw [hcell ix h1, hcell jx h2] at e
      exact position_inj h1 h2 (Nat.add_left_cancel e))
    (by
      intro ix jx h1 h2 e
      rw [hcell ix h1] at e
      have := position_lt h1
      have := hfresh jx h2
      simp only at *
      omega)
    m
    (by
      intro ix h
      rw [hcell ix h]
      exact hblock _ (position_lt h))
    hxa
  refine ⟨m', h1, h2, fun c hc => h3 c fun ix h e => ?_⟩
  rw [hcell ix h] at e
  have := position_lt h
  simp only at *
  omega

-- row copies (last axis longer than 16, strides 1), a transposed source, rank 0
example : ((⟨0, [2, 17], [20, 1]⟩ : View).assign ⟨100, [2, 17], [17, 1]⟩ (fun c => some c)).bind
    (fun m => .ok (m 25, m 18)) = .ok (some 122, some 18) := by decide
example : ((⟨0, [2, 3], [3, 1]⟩ : View).assign ⟨10, [2, 3], [1, 2]⟩ (fun c => some c)).bind
    (fun m => .ok ((List.range 6).map m)) = .ok [some 10, some 12, some 14, some 11, some 13, some 15] := by decide
example : ((⟨0, [], []⟩ : View).assign ⟨10, [], []⟩ (fun c => some c)).bind (fun m => .ok (m 0)) = .ok (some 10) := by
  decide
example : (⟨0, [2, 3], [3, 1]⟩ : View).Distinct ∧ (⟨0, [2, 3], [3, 1]⟩ : View).Apart ⟨10, [2, 3], [1, 2]⟩ := by
  decide

/-! ## C17 -/

/-- `r.add(x)` (`op` is `+`; `x` may be `r` itself but must not overlap `r` shifted): each element becomes
`op old x`, other cells unchanged.  Missing: views all of whose strides are zero. -/
theorem C17_add_partial (op : α → α → α) (r x : View) (hr : r.WF) (hx : x.WF) (hd : r.dims = x.dims)
    (hs : ∀ s ∈ r.strides, s < intMax) (hz : r.strides = [] ∨ ∃ s ∈ r.strides, s ≠ 0)
    (hdist : r.Distinct) (hal : r.Aligned x) (m : Buf α) (hra : r.Alloc m) (hxa : x.Alloc m) :
    ∃ m', addView op r x m = .ok m' ∧
      Updated r (fun ix => do let a ← r.val m ix; let b ← x.val m ix; pure (op a b)) m m' := by
  unfold addView
  simp only [hd, decide_true, Res.assrt_true, Res.ok_bind]
  by_cases hp : asize x.dims = 0
  · rw [if_pos hp]
    refine ⟨m, rfl, fun ix hix => ?_, fun c _ => rfl⟩
    exfalso
    have := mem_allIndices.2 hix
    rw [asize_eq, ← hd] at hp
    have hl := allIndices_length r.dims
    rw [hp] at hl
    rw [List.length_eq_zero_iff.1 hl] at this
    simp at this
  · rw [if_neg hp]
    rw [asize_eq, ← hd] at hp
    have hp' := Nat.pos_of_ne_zero hp
    obtain ⟨c, hc⟩ := isContiguous_ok r hr
    rw [← hd, hc, Res.ok_bind]
    by_cases hcs : c = true ∧ r.strides = x.strides
    · rw [if_pos hcs]
      obtain ⟨rfl, hst⟩ := hcs
      obtain ⟨hperm, hms⟩ := distinct_contiguous r hr hp' hdist hc
      have hbulk := bulk_perm r x hr hst hperm
      rw [← hst, hms hz, Res.ok_bind]
      obtain ⟨m', h1, h2⟩ := upd_updated op r x hd hdist hal m hra hxa _ hbulk
      refine ⟨m', ?_, h2⟩
      rw [← h1, stdAdd, loop, runUpd, forM_map]
    · rw [if_neg hcs]
      by_cases h0 : r.dims = []
      · exfalso
        apply hcs
        have hrs : r.strides = [] := List.length_eq_zero_iff.1 (by rw [show r.strides.length = r.dims.length from hr, h0]; rfl)
        have hxs : x.strides = [] := List.length_eq_zero_iff.1 (by rw [show x.strides.length = x.dims.length from hx, ← hd, h0]; rfl)
        rw [hrs, h0] at hc
        have : isContiguous ([] : List Nat) [] = .ok true := rfl
        rw [this] at hc
        cases hc
        exact ⟨rfl, hrs.trans hxs.symm⟩
      obtain ⟨r', x', e, hr', hx', hd', hpp⟩ := C15_co_scrunch r x hr hx hd hs
      rw [e, Res.ok_bind]
      have hne' := coScrunch_ne r x r' x' hr hd hs h0 e
      obtain ⟨m', h1, h2⟩ := upd_updated op r x hd hdist hal m hra hxa _ hpp
      refine ⟨m', ?_, h2⟩
      rw [← h1]
      simp only
      rw [pairLoops_eq _ r' x' hr' hx' hd' hne', runUpd]

/-- Different dims are refused. -/
theorem C17_add_refuses (op : α → α → α) (r x : View) (hd : r.dims ≠ x.dims) (m : Buf α) :
    addView op r x m = .throw := by
  simp [addView, hd]

/-- Same defect as in assignment: with all strides zero nothing is added. -/
theorem C17_add_zero_strides_fails :
    ∃ (r x : View) (m : Buf Nat), r.WF ∧ x.WF ∧ r.dims = x.dims ∧ r.Distinct ∧ r.Aligned x ∧ r.Alloc m ∧
      x.Alloc m ∧ addView (· + ·) r x m = .ok m ∧ r.val m [0] = some 5 ∧ x.val m [0] = some 7 := by
  refine ⟨⟨0, [1], [0]⟩, ⟨1, [1], [0]⟩, Buf.ofList [5, 7], rfl, rfl, rfl, by decide, by decide, by decide, by decide, rfl, by decide, by decide⟩

/-- `add(x,c)`, `subtract(x)`, `subtract(x,c)`: each element becomes `op old x`, other cells unchanged, on
both internal paths and for all strides. -/
theorem C17_add_scaled (op : α → α → α) (r x : View) (hr : r.WF) (hx : x.WF) (hd : r.dims = x.dims)
    (hdist : r.Distinct) (hal : r.Aligned x) (m : Buf α) (hra : r.Alloc m) (hxa : x.Alloc m) :
    ∃ m', addScaled op r x m = .ok m' ∧
      Updated r (fun ix => do let a ← r.val m ix; let b ← x.val m ix; pure (op a b)) m m' := by
  obtain ⟨m', h1, h2⟩ := upd_updated op r x hd hdist hal m hra hxa _ (List.Perm.refl _)
  refine ⟨m', ?_, h2⟩
  rw [← h1]
  unfold addScaled
  obtain ⟨a, ha⟩ := isRegular_ok r hr
  obtain ⟨b, hb⟩ := isRegular_ok x hx
  rw [ha, hb, Res.ok_bind, Res.ok_bind]
  split
  · rename_i h
    obtain ⟨rfl, rfl, hst⟩ := h
    have hreg := (isRegular_iff _ _).1 ha
    have e : pairCells r x = (List.range r.dims.prod).map fun i => (r.off + i, x.off + i) := by
      rw [← map_position_allIndices, List.map_map, pairCells]
      apply List.map_congr_left
      intro ix hix
      have hl := (mem_allIndices.1 hix).length
      simp [View.cell, ← hst, hreg, dot_rmStrides _ _ hl]
    rw [e, asize_eq, loop, runUpd, forM_map]
  · rename_i h
    have hne : r.dims ≠ [] := by
      intro h0
      apply h
      have hrs : r.strides = [] := List.length_eq_zero_iff.1 (by rw [show r.strides.length = r.dims.length from hr, h0]; rfl)
      have hxs : x.strides = [] := List.length_eq_zero_iff.1 (by rw [show x.strides.length = x.dims.length from hx, ← hd, h0]; rfl)
      rw [hrs, h0] at ha
      rw [hxs, ← hd, h0] at hb
      have : isRegular ([] : List Nat) [] = .ok true := rfl
      rw [this] at ha hb
      cases ha; cases hb
      exact ⟨rfl, rfl, hrs.trans hxs.symm⟩
    rw [forEachIx_eq r hr hne, runUpd, pairCells, forM_map]
    apply forM_congr
    intro ix hix m
    have hl := (mem_allIndices.1 hix).length
    have : x.strides.length = x.dims.length := hx
    rw [addr_eq x ix (by rw [this, ← hd]; omega), Res.ok_bind]

example : (addView (· + ·) ⟨0, [2, 3], [3, 1]⟩ ⟨10, [2, 3], [1, 2]⟩ (fun c => some c)).bind
    (fun m => .ok ((List.range 6).map m)) = .ok [some 10, some 13, some 16, some 14, some 17, some 20] := by decide
example : (addScaled (fun a b => a + 2 * b) ⟨0, [2, 3], [3, 1]⟩ ⟨10, [2, 3], [1, 2]⟩ (fun c => some c)).bind
    (fun m => .ok ((List.range 6).map m)) = .ok [some 20, some 25, some 30, some 25, some 30, some 35] := by decide
example : (⟨0, [2, 3], [3, 1]⟩ : View).Aligned ⟨0, [2, 3], [3, 1]⟩ := by
  decide

end Cnine
