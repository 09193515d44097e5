import Verif.Lemmas.BGtensor2

/-! # C74, C144 reconciling batches and grids; C145 parts of a BGtensor; C146 the loop over its cells -/

namespace Cnine

variable {α : Type _}

/-! ## C74 -/

/-- Two batch sizes: the common one, or an exception. -/
theorem C74_batch2 (xb yb : Nat) :
    (∀ B, domBatch2 xb yb = .ok B ↔ CommonB [xb, yb] B) ∧ ((¬ ∃ B, CommonB [xb, yb] B) → domBatch2 xb yb = .throw) := by
  have key : ∀ B, domBatch2 xb yb = .ok B ↔ CommonB [xb, yb] B := by
    intro B
    simp only [CommonB, List.mem_cons, List.not_mem_nil, or_false, forall_eq_or_imp, forall_eq, domBatch2]
    split
    · simp only [Res.ok.injEq]; omega
    · split
      · simp only [Res.ok.injEq]; omega
      · split
        · simp only [Res.ok.injEq]; omega
        · simp only [reduceCtorEq, false_iff]; omega
  refine ⟨key, fun hn => ?_⟩
  cases h : domBatch2 xb yb with
  | ok B => exact absurd ⟨B, (key B).1 h⟩ hn
  | throw => rfl
  | ub => unfold domBatch2 at h; split at h <;> (try split at h) <;> (try split at h) <;> cases h

example : domBatch2 3 1 = .ok 3 ∧ domBatch2 1 1 = .ok 1 ∧ domBatch2 3 2 = .throw ∧ CommonB [3, 1] 3 := by decide

theorem gt1_eq {b : Nat} (h : 0 < b) : gt1 b = if b = 1 then 0 else 1 := by
  unfold gt1
  by_cases e : b = 1
  · simp [e]
  · rw [if_pos (by omega), if_neg e]

/-- Three positive batch sizes. -/
theorem C74_batch3 (xb yb zb : Nat) (hx : 0 < xb) (hy : 0 < yb) (hz : 0 < zb) :
    (∀ B, domBatch3 xb yb zb = .ok B ↔ CommonB [xb, yb, zb] B) ∧
    ((¬ ∃ B, CommonB [xb, yb, zb] B) → domBatch3 xb yb zb = .throw) := by
  have thr : (¬ ∃ B, CommonB [xb, yb, zb] B) → domBatch3 xb yb zb = .throw := by
    intro hn
    have h1 : ∀ B, ¬ CommonB [xb, yb, zb] B := fun B hB => hn ⟨B, hB⟩
    simp only [CommonB, List.mem_cons, List.not_mem_nil, or_false, forall_eq_or_imp, forall_eq] at h1
    have k1 := h1 1
    have kx := h1 xb
    have ky := h1 yb
    have kz := h1 zb
    simp only [domBatch3, hx, hy, hz, decide_true, Bool.and_true, Res.assrt_true, Res.ok_bind]
    by_cases ex : xb = 1 <;> by_cases ey : yb = 1 <;> by_cases ez : zb = 1 <;>
      by_cases e1 : yb = zb <;> by_cases e2 : xb = zb <;> by_cases e3 : xb = yb <;>
      first
      | (exfalso; omega)
      | (simp [gt1_eq hx, gt1_eq hy, gt1_eq hz, ex, ey, ez, e1, e2, e3, Res.assrt, show gt1 1 = 0 from rfl]; done)
      | (simp [gt1_eq hx, gt1_eq hy, gt1_eq hz, ex, ey, ez, e1, e2, e3, Res.assrt, show gt1 1 = 0 from rfl]
         rw [if_neg (by omega)]; rfl)
  refine ⟨fun B => ⟨fun h => ?_, fun h => domBatch3_ok h hx hy hz⟩, thr⟩
  by_contra hc
  by_cases hn : ∃ B, CommonB [xb, yb, zb] B
  · obtain ⟨B', hB'⟩ := hn
    rw [domBatch3_ok hB' hx hy hz, Res.ok.injEq] at h
    exact hc (h ▸ hB')
  · rw [thr hn] at h; cases h

example : domBatch3 1 4 4 = .ok 4 ∧ domBatch3 1 4 3 = .throw ∧ CommonB [1, 4, 4] 4 := by decide

/-- Four positive batch sizes. -/
theorem C74_batch4 (xb yb zb wb : Nat) (hx : 0 < xb) (hy : 0 < yb) (hz : 0 < zb) (hw : 0 < wb) :
    (∀ B, domBatch4 xb yb zb wb = .ok B ↔ CommonB [xb, yb, zb, wb] B) ∧
    ((¬ ∃ B, CommonB [xb, yb, zb, wb] B) → domBatch4 xb yb zb wb = .throw) := by
  have key : ∀ C, (∀ B, CommonB [xb, yb, zb, wb] B ↔ B = C ∧ CommonB [xb, yb, zb, wb] C) →
      C = (if 1 < wb then wb else if 1 < zb then zb else if 1 < yb then yb else if 1 < xb then xb else 1) →
      (∀ B, domBatch4 xb yb zb wb = .ok B ↔ CommonB [xb, yb, zb, wb] B) ∧
      ((¬ ∃ B, CommonB [xb, yb, zb, wb] B) → domBatch4 xb yb zb wb = .throw) := by
    intro C hC eC
    have hmem : C ∈ [xb, yb, zb, wb] := by
      rw [eC]
      simp only [List.mem_cons, List.not_mem_nil, or_false]
      repeat' split
      all_goals omega
    have ev : domBatch4 xb yb zb wb = if CommonB [xb, yb, zb, wb] C then .ok C else .throw := by
      simp only [domBatch4, hx, hy, hz, hw, decide_true, Bool.and_true, Res.assrt_true, Res.ok_bind, ← eC]
      unfold Res.assrt
      by_cases h1 : xb = C ∨ xb = 1
      · by_cases h2 : yb = C ∨ yb = 1
        · by_cases h3 : zb = C ∨ zb = 1
          · by_cases h4 : wb = C ∨ wb = 1
            · have : CommonB [xb, yb, zb, wb] C := ⟨hmem, by simp [h1, h2, h3, h4]⟩
              rw [if_pos this]
              simp [h1, h2, h3, h4]
            · have : ¬ CommonB [xb, yb, zb, wb] C := fun h => h4 (h.2 wb (by simp))
              rw [if_neg this]
              simp [h1, h2, h3, h4]
          · have : ¬ CommonB [xb, yb, zb, wb] C := fun h => h3 (h.2 zb (by simp))
            rw [if_neg this]
            simp [h1, h2, h3]
        · have : ¬ CommonB [xb, yb, zb, wb] C := fun h => h2 (h.2 yb (by simp))
          rw [if_neg this]
          simp [h1, h2]
      · have : ¬ CommonB [xb, yb, zb, wb] C := fun h => h1 (h.2 xb (by simp))
        rw [if_neg this]
        simp [h1]
    refine ⟨fun B => ?_, fun hn => ?_⟩
    · rw [ev, hC B]
      split
      · rename_i h; simp [h, eq_comm]
      · rename_i h; simp [h]
    · rw [ev, if_neg fun h => hn ⟨C, h⟩]
  refine key _ (fun B => ?_) rfl
  constructor
  · intro h
    have e : B = (if 1 < wb then wb else if 1 < zb then zb else if 1 < yb then yb else if 1 < xb then xb else 1) := by
      simp only [CommonB, List.mem_cons, List.not_mem_nil, or_false, forall_eq_or_imp, forall_eq] at h
      repeat' split
      all_goals omega
    exact ⟨e, e ▸ h⟩
  · rintro ⟨e, h⟩
    exact e ▸ h

example : domBatch4 1 4 1 4 = .ok 4 ∧ domBatch4 2 1 1 3 = .throw ∧ CommonB [1, 4, 1, 4] 4 := by decide

theorem commonG_unique {l : List (List Nat)} {g h : List Nat} (hg : CommonG l g) (hh : CommonG l h) : g = h := by
  rcases hg.2 h hh.1 with e | e
  · exact e.symm
  · rcases hh.2 g hg.1 with k | k
    · exact k
    · rw [e, k]

/-- Two grids (also two cell shapes, `dominant_cdims`). -/
theorem C74_grid2 (xg yg : List Nat) :
    (∀ g, domG2 xg yg = .ok g ↔ CommonG [xg, yg] g) ∧ ((¬ ∃ g, CommonG [xg, yg] g) → domG2 xg yg = .throw) := by
  have fwd : ∀ g, CommonG [xg, yg] g → domG2 xg yg = .ok g := by
    intro g h
    simp only [CommonG, List.mem_cons, List.not_mem_nil, or_false, forall_eq_or_imp, forall_eq] at h
    obtain ⟨h0, h1, h2⟩ := h
    unfold domG2
    rcases h1 with rfl | rfl <;> rcases h2 with rfl | rfl <;> simp_all
  have thr : (¬ ∃ g, CommonG [xg, yg] g) → domG2 xg yg = .throw := by
    intro hn
    unfold domG2
    rw [if_neg, if_neg, if_neg]
    · intro e; exact hn ⟨xg, by simp, by simp [List.length_eq_zero_iff.1 e]⟩
    · intro e; exact hn ⟨yg, by simp, by simp [List.length_eq_zero_iff.1 e]⟩
    · intro e; exact hn ⟨xg, by simp, by simp [e]⟩
  refine ⟨fun g => ⟨fun h => ?_, fwd g⟩, thr⟩
  by_cases hn : ∃ g, CommonG [xg, yg] g
  · obtain ⟨g', hg'⟩ := hn
    rw [fwd g' hg', Res.ok.injEq] at h
    exact h ▸ hg'
  · rw [thr hn] at h; cases h

example : domG2 [2, 3] [] = .ok [2, 3] ∧ domG2 [2, 3] [2, 3] = .ok [2, 3] ∧ domG2 [2, 3] [3] = .throw ∧
    CommonG [[2, 3], []] [2, 3] := by decide

/-- Three grids: the third is ignored. -/
theorem C74_grid3 (xg yg zg : List Nat) :
    (∀ g, domG3 xg yg zg = .ok g ↔ CommonG [xg, yg] g) ∧ ((¬ ∃ g, CommonG [xg, yg] g) → domG3 xg yg zg = .throw) := by
  have thr : (¬ ∃ g, CommonG [xg, yg] g) → domG3 xg yg zg = .throw := by
    intro hn
    have ex : xg ≠ [] := fun e => hn ⟨yg, by simp, by simp [e]⟩
    have ey : yg ≠ [] := fun e => hn ⟨xg, by simp, by simp [e]⟩
    have ne : xg ≠ yg := fun e => hn ⟨xg, by simp, by simp [e]⟩
    simp [domG3, some1, List.length_pos_iff, ex, ey, ne, Res.assrt]
  refine ⟨fun g => ⟨fun h => ?_, domG3_ok zg⟩, thr⟩
  by_cases hn : ∃ g, CommonG [xg, yg] g
  · obtain ⟨g', hg'⟩ := hn
    rw [domG3_ok zg hg', Res.ok.injEq] at h
    exact h ▸ hg'
  · rw [thr hn] at h; cases h

example : domG3 [2, 3] [] [2, 3] = .ok [2, 3] ∧ domG3 [2] [3] [] = .throw ∧ CommonG [[2, 3], []] [2, 3] := by decide

/-- Four grids: the third is ignored. -/
theorem C74_grid4 (xg yg zg wg : List Nat) :
    (∀ g, domG4 xg yg zg wg = .ok g ↔ CommonG [xg, yg, wg] g) ∧
    ((¬ ∃ g, CommonG [xg, yg, wg] g) → domG4 xg yg zg wg = .throw) := by
  have lz : ∀ l : List Nat, (l.length = 0) ↔ l = [] := fun l => List.length_eq_zero_iff
  have main : ∀ C : List Nat, C = (if 0 < wg.length then wg else if 0 < yg.length then yg else if 0 < xg.length then xg else []) →
      (∀ g, domG4 xg yg zg wg = .ok g ↔ CommonG [xg, yg, wg] g) ∧
      ((¬ ∃ g, CommonG [xg, yg, wg] g) → domG4 xg yg zg wg = .throw) := by
    intro C eC
    have hmem : C ∈ [xg, yg, wg] := by
      rw [eC]
      by_cases h1 : 0 < wg.length
      · simp [h1]
      · rw [if_neg h1]
        by_cases h2 : 0 < yg.length
        · simp [h2]
        · rw [if_neg h2]
          by_cases h3 : 0 < xg.length
          · simp [h3]
          · rw [if_neg h3]
            have : xg = [] := by rw [← lz]; omega
            simp [this]
    have huniq : ∀ g, CommonG [xg, yg, wg] g → g = C := by
      intro g hg
      have k1 := hg.2 xg (by simp)
      have k2 := hg.2 yg (by simp)
      have k3 := hg.2 wg (by simp)
      have k0 := hg.1
      simp only [List.mem_cons, List.not_mem_nil, or_false] at k0
      rw [eC]
      by_cases h1 : 0 < wg.length
      · rw [if_pos h1]
        rcases k3 with e | e
        · exact e.symm
        · rw [e] at h1; simp at h1
      · rw [if_neg h1]
        have e1 : wg = [] := by rw [← lz]; omega
        by_cases h2 : 0 < yg.length
        · rw [if_pos h2]
          rcases k2 with e | e
          · exact e.symm
          · rw [e] at h2; simp at h2
        · rw [if_neg h2]
          have e2 : yg = [] := by rw [← lz]; omega
          by_cases h3 : 0 < xg.length
          · rw [if_pos h3]
            rcases k1 with e | e
            · exact e.symm
            · rw [e] at h3; simp at h3
          · rw [if_neg h3]
            have e3 : xg = [] := by rw [← lz]; omega
            rcases k0 with e | e | e <;> simp [e, e1, e2, e3]
    have ev : domG4 xg yg zg wg = if CommonG [xg, yg, wg] C then .ok C else .throw := by
      have e0 : (if 0 < yg.length then yg else if 0 < yg.length then yg else if 0 < xg.length then xg else []) =
          if 0 < yg.length then yg else if 0 < xg.length then xg else [] := by split <;> rfl
      simp only [domG4, e0, ← eC]
      unfold Res.assrt
      by_cases h1 : xg = [] ∨ xg = C
      · by_cases h2 : yg = [] ∨ yg = C
        · by_cases h3 : wg = [] ∨ wg = C
          · have : CommonG [xg, yg, wg] C := ⟨hmem, by simp [h1.symm, h2.symm, h3.symm]⟩
            rw [if_pos this]
            simp [h1, h2, h3]
          · have : ¬ CommonG [xg, yg, wg] C := fun h => h3 ((h.2 wg (by simp)).symm)
            rw [if_neg this]
            simp [h1, h2, h3]
        · have : ¬ CommonG [xg, yg, wg] C := fun h => h2 ((h.2 yg (by simp)).symm)
          rw [if_neg this]
          simp [h1, h2]
      · have : ¬ CommonG [xg, yg, wg] C := fun h => h1 ((h.2 xg (by simp)).symm)
        rw [if_neg this]
        simp [h1]
    refine ⟨fun g => ?_, fun hn => ?_⟩
    · rw [ev]
      split
      · rename_i h
        rw [Res.ok.injEq]
        exact ⟨fun e => e ▸ h, fun hg => (huniq g hg).symm⟩
      · rename_i h
        simp only [reduceCtorEq, false_iff]
        intro hg
        exact h ((huniq g hg) ▸ hg)
    · rw [ev, if_neg fun h => hn ⟨C, h⟩]
  exact main _ rfl

example : domG4 [] [2, 3] [2, 3] [2, 3] = .ok [2, 3] ∧ domG4 [2] [] [] [3] = .throw ∧ CommonG [[], [2, 3], [2, 3]] [2, 3] := by
  decide

/-! ## C144 -/

/-- If the third grid agrees with the other two, or is absent while they have one, the result is the common grid. -/
theorem C144_agree_partial (xg yg zg wg g : List Nat) :
    (CommonG [xg, yg, zg] g → (xg = g ∨ yg = g) → domG3 xg yg zg = .ok g) ∧
    (CommonG [xg, yg, zg, wg] g → (xg = g ∨ yg = g ∨ wg = g) → domG4 xg yg zg wg = .ok g) := by
  constructor
  · intro h h'
    refine domG3_ok zg ⟨by simp [h'.imp Eq.symm Eq.symm], fun k hk => h.2 k ?_⟩
    simp only [List.mem_cons, List.not_mem_nil, or_false] at hk ⊢
    rcases hk with e | e <;> simp [e]
  · intro h h'
    refine ((C74_grid4 xg yg zg wg).1 g).2 ⟨?_, fun k hk => h.2 k ?_⟩
    · rcases h' with e | e | e <;> simp [e]
    · simp only [List.mem_cons, List.not_mem_nil, or_false] at hk ⊢
      rcases hk with e | e | e <;> simp [e]

example : CommonG [[2], [], [2]] [2] ∧ domG3 [2] [] [2] = .ok [2] := by decide

/-- Full statement, which is false: with a third operand the result is the common grid of all operands and a
conflict is an exception.  The grid of the third is lost when only it has one, and a conflict goes unnoticed. -/
theorem C144_grid_fails :
    (CommonG [[], [], [2]] [2] ∧ domG3 [] [] [2] = .ok []) ∧
    ((¬ ∃ g, CommonG [[2], [], [3]] g) ∧ domG3 [2] [] [3] = .ok [2]) ∧
    (CommonG [[], [], [2], []] [2] ∧ domG4 [] [] [2] [] = .ok []) ∧
    ((¬ ∃ g, CommonG [[2], [], [3], []] g) ∧ domG4 [2] [] [3] [] = .ok [2]) := by
  refine ⟨by decide, ⟨?_, by decide⟩, by decide, ⟨?_, by decide⟩⟩ <;>
  · rintro ⟨g, -, h⟩
    simp only [List.mem_cons, List.not_mem_nil, or_false, forall_eq_or_imp, forall_eq] at h
    obtain ⟨h1, -, h2⟩ := h
    rcases h1 with h1 | h1
    · subst h1; revert h2; decide
    · cases h1

/-! ## C145 -/

namespace BG

theorem mk_parts (q n : Nat) (gd cd : List Nat) (k : Nat) (gs cs : List Nat) (hg : gd.length = gs.length)
    (hc : cd.length = cs.length) :
    let x : BG := ⟨⟨q, n :: gd ++ cd, k :: gs ++ cs⟩, gd.length⟩
    x.Ok ∧ x.b = n ∧ x.g = gd ∧ x.c = cd ∧ x.bs = k ∧ x.gs = gs ∧ x.cs = cs := by
  refine ⟨⟨?_, ?_⟩, rfl, ?_, ?_, rfl, ?_, ?_⟩
  · simp [View.WF, hg, hc]
  · simp
  · simp [g]
  · simp [c]
  · simp [BG.gs, hg]
  · simp [BG.cs, hg]

/-- The constructor from parts gives these parts, or throws when the numbers of strides differ. -/
theorem C145_parts (q n : Nat) (gd cd : List Nat) (k : Nat) (gs cs : List Nat) :
    (gd.length = gs.length → cd.length = cs.length → ∃ x, ofParts q n gd cd k gs cs = .ok x ∧ x.Ok ∧
      x.getb = .ok n ∧ x.gdims = .ok gd ∧ x.cdims = .ok cd ∧ x.bstride = .ok k ∧ x.gstrides = .ok gs ∧ x.cstrides = .ok cs ∧
      ∀ i gx cx, gx.length = gd.length → x.v.cell (i :: (gx ++ cx)) = q + k * i + dot gs gx + dot cs cx) ∧
    (¬ (gd.length = gs.length ∧ cd.length = cs.length) → ofParts q n gd cd k gs cs = .throw) := by
  constructor
  · intro hg hc
    obtain ⟨h, h1, h2, h3, h4, h5, h6⟩ := mk_parts q n gd cd k gs cs hg hc
    refine ⟨_, by simp [ofParts, hg, hc], h, ?_⟩
    refine ⟨h.getb.trans (congrArg _ h1), h.gdims.trans (congrArg _ h2), h.cdims.trans (congrArg _ h3),
      h.bstride.trans (congrArg _ h4), h.gstrides.trans (congrArg _ h5), h.cstrides.trans (congrArg _ h6), ?_⟩
    intro i gx cx hl
    simp only [View.cell, List.cons_append]
    rw [dot_cons, dot_append _ _ _ _ (by omega)]
    omega
  · intro hn
    unfold ofParts
    by_cases h1 : gd.length = gs.length
    · have h2 : cd.length ≠ cs.length := fun h2 => hn ⟨h1, h2⟩
      simp [h1, h2, Res.assrt]
    · simp [h1, Res.assrt]

example : ofParts 7 2 [3] [2, 2] 12 [4] [2, 1] = .ok ⟨⟨7, [2, 3, 2, 2], [12, 4, 2, 1]⟩, 1⟩ := by decide

/-- The constructor from sizes: the parts, and the elements consecutive in row-major order. -/
theorem C145_make (q n : Nat) (gd cd : List Nat) :
    (make q n gd cd).Ok ∧ (make q n gd cd).getb = .ok n ∧ (make q n gd cd).gdims = .ok gd ∧ (make q n gd cd).cdims = .ok cd ∧
    ∀ i gx cx, gx.length = gd.length → cx.length = cd.length →
      (make q n gd cd).v.cell (i :: (gx ++ cx)) = q + position (n :: (gd ++ cd)) (i :: (gx ++ cx)) := by
  have hok : (make q n gd cd).Ok := by
    refine ⟨?_, ?_⟩
    · simp [make, View.WF]
    · simp [make]
  refine ⟨hok, hok.getb, ?_, ?_, ?_⟩
  · rw [hok.gdims]; simp [make, g]
  · rw [hok.cdims]; simp [make, c]
  · intro i gx cx h1 h2
    simp only [make, View.cell, List.cons_append]
    rw [dot_rmStrides _ _ (by simp [h1, h2])]

example : (make 5 2 [3] [4]).v.cell [1, 2, 3] = 5 + 23 := by decide

/-- `BGtensor(x,batched,ng)`: an unbatched view gets a batch axis of size 1 in front. -/
theorem C145_ofView (v : View) (hv : v.WF) (ng : Nat) :
    (ng + 1 ≤ v.dims.length → ∃ x, ofView v true ng = .ok x ∧ x.Ok ∧ x.v = v ∧ x.ng = ng) ∧
    (ng ≤ v.dims.length → ∃ x, ofView v false ng = .ok x ∧ x.Ok ∧ x.ng = ng ∧ x.b = 1 ∧ x.g ++ x.c = v.dims ∧
      x.g.length = ng ∧ ∀ gx cx, x.v.cell (0 :: (gx ++ cx)) = v.cell (gx ++ cx)) := by
  constructor
  · intro h
    exact ⟨⟨v, ng⟩, rfl, ⟨hv, h⟩, rfl, rfl⟩
  · intro h
    refine ⟨⟨⟨v.off, 1 :: v.dims, 0 :: v.strides⟩, ng⟩, by simp [ofView, gvInsert], ⟨?_, ?_⟩, rfl, rfl, ?_, ?_, ?_⟩
    · simp only [View.WF, List.length_cons]; exact congrArg (· + 1) hv
    · simp only [List.length_cons]; omega
    · simp [g, c]
    · simp [g, h]
    · intro gx cx
      simp [View.cell]

example : ofView ⟨3, [2, 4], [4, 1]⟩ false 1 = .ok ⟨⟨3, [1, 2, 4], [0, 4, 1]⟩, 1⟩ := by decide

/-- `batch(b)`: one batch, the same grid and cells, the elements of batch `b`. -/
theorem C145_batch (x : BG) (h : x.Ok) (i : Nat) :
    ∃ y, x.batch i = .ok y ∧ y.Ok ∧ y.b = 1 ∧ y.g = x.g ∧ y.c = x.c ∧
      ∀ gx cx, gx.length = x.g.length → y.v.cell (0 :: (gx ++ cx)) = x.v.cell (i :: (gx ++ cx)) := by
  obtain ⟨h1, h2, h3, h4, h5⟩ := h.split
  obtain ⟨k, k1, k2, k3, -⟩ := mk_parts (x.v.off + i * x.bs) 1 x.g x.c 0 x.gs x.cs (by omega) (by omega)
  refine ⟨_, ?_, k, k1, k2, k3, ?_⟩
  · simp [batch, h.bstride, h.gdims, h.cdims, h.gstrides, h.cstrides, ofParts, h3, h4, h5]
  · intro gx cx hl
    rw [View.cell, View.cell, h2]
    simp only [List.cons_append]
    rw [dot_cons, dot_cons]
    have : i * x.bs = x.bs * i := Nat.mul_comm _ _
    omega

example : (make 0 2 [3] [4]).batch 1 = .ok ⟨⟨12, [1, 3, 4], [0, 4, 1]⟩, 1⟩ := by decide

/-- `cell(ix)`: all batches of the cell at grid point `ix`. -/
theorem C145_cell (x : BG) (h : x.Ok) (ix : List Nat) (hix : InRange ix x.g) :
    ∃ y, x.cellOf ix = .ok y ∧ y.Ok ∧ y.b = x.b ∧ y.g = [] ∧ y.c = x.c ∧
      ∀ i cx, y.v.cell (i :: cx) = x.v.cell (i :: (ix ++ cx)) := by
  obtain ⟨h1, h2, h3, h4, h5⟩ := h.split
  obtain ⟨k, k1, k2, k3, -⟩ := mk_parts (x.v.off + dot x.gs ix) x.b [] x.c x.bs [] x.cs rfl (by omega)
  refine ⟨_, ?_, k, k1, k2, k3, ?_⟩
  · rw [cellOf, h.gstrides, Res.ok_bind, offs_eq _ _ (by rw [hix.length]; omega)]
    simp [h.getb, h.cdims, h.bstride, h.cstrides, ofParts, h5]
  · intro i cx
    rw [View.cell, View.cell, h2, dot_cons, dot_append _ _ _ _ (by rw [hix.length]; omega)]
    simp only [List.nil_append, List.cons_append]
    rw [dot_cons]
    omega

example : (make 0 2 [3] [4]).cellOf [2] = .ok ⟨⟨8, [2, 4], [12, 1]⟩, 0⟩ := by decide

/-- `cell(b,ix)`: the cell of one batch at grid point `ix`. -/
theorem C145_cellAt (x : BG) (h : x.Ok) (i : Nat) (ix : List Nat) (hix : InRange ix x.g) :
    ∃ y, x.cellAt i ix = .ok y ∧ y.Ok ∧ y.b = 1 ∧ y.g = [] ∧ y.c = x.c ∧
      ∀ cx, y.v.cell (0 :: cx) = x.v.cell (i :: (ix ++ cx)) := by
  obtain ⟨h1, h2, h3, h4, h5⟩ := h.split
  obtain ⟨k, k1, k2, k3, -⟩ := mk_parts (x.v.off + i * x.bs + dot x.gs ix) 1 [] x.c 0 [] x.cs rfl (by omega)
  refine ⟨_, ?_, k, k1, k2, k3, ?_⟩
  · rw [cellAt, h.bstride, Res.ok_bind, h.gstrides, Res.ok_bind, offs_eq _ _ (by rw [hix.length]; omega)]
    simp [h.cdims, h.cstrides, ofParts, h5]
  · intro cx
    rw [View.cell, View.cell, h2, dot_cons, dot_append _ _ _ _ (by rw [hix.length]; omega)]
    simp only [List.nil_append, List.cons_append]
    rw [dot_cons]
    have : i * x.bs = x.bs * i := Nat.mul_comm _ _
    omega

example : (make 0 2 [3] [4]).cellAt 1 [2] = .ok ⟨⟨20, [1, 4], [0, 1]⟩, 0⟩ := by decide

/-- `transp()` exchanges the two cell axes, and throws for other numbers of them. -/
theorem C145_transp (x : BG) (h : x.Ok) :
    (∀ n m, x.c = [n, m] → ∃ y, x.transp = .ok y ∧ y.Ok ∧ y.b = x.b ∧ y.g = x.g ∧ y.c = [m, n] ∧
      ∀ i gx k l, gx.length = x.g.length → y.v.cell (i :: (gx ++ [l, k])) = x.v.cell (i :: (gx ++ [k, l]))) ∧
    (x.c.length ≠ 2 → x.transp = .throw) := by
  obtain ⟨h1, h2, h3, h4, h5⟩ := h.split
  constructor
  · intro n m hc
    obtain ⟨s, t, hs⟩ : ∃ s t, x.cs = [s, t] := by
      rw [hc] at h5
      match hcs : x.cs, h5 with
      | [s, t], _ => exact ⟨s, t, rfl⟩
    obtain ⟨k, k1, k2, k3, -⟩ := mk_parts x.v.off x.b x.g [m, n] x.bs x.gs [t, s] (by omega) rfl
    refine ⟨_, ?_, k, k1, k2, k3, ?_⟩
    · rw [transp, h1, h2, hc, hs]
      simp [h3, Res.assrt, View.swapLast2]
    · intro i gx a b hl
      rw [View.cell, View.cell, h2, hs]
      simp only [List.cons_append]
      rw [dot_cons, dot_cons, dot_append _ _ _ _ (by omega), dot_append _ _ _ _ (by omega)]
      simp
      omega
  · intro hc
    have : x.v.dims.length ≠ x.ng + 1 + 2 := by
      rw [h1]; simp only [List.length_cons, List.length_append]; omega
    simp [transp, Res.assrt, this]

example : (make 0 2 [3] [2, 4]).transp = .ok ⟨⟨0, [2, 3, 4, 2], [24, 8, 1, 4]⟩, 1⟩ := by decide

/-! ## C146 -/

/-- The view that `for_each_cell_multi` passes: dims and elements of the cell, with the batch (grid) index dropped for an
operand of one batch (without grid). -/
theorem cellView_spec (x : BG) (h : x.Ok) {B : Nat} {G : List Nat} (hf : x.Fits B G) (b : Nat) (gx : List Nat)
    (hg : InRange gx G) : (x.cellView b gx).WF ∧ (x.cellView b gx).dims = x.c ∧ ∀ cx, (x.cellView b gx).cell cx =
      x.v.cell ((if x.b = 1 then 0 else b) :: ((if x.g = [] then [] else gx) ++ cx)) := by
  refine ⟨h.cellView_wf b gx, rfl, fun cx => ?_⟩
  rw [h.cellView_cell b gx cx (h.fits_len hf hg), elt]
  simp only [h.ng_iff]

/-- `v` is the cell of `x` at batch `b` and grid point `gx`, repeated along a batch or grid that `x` does not have. -/
def IsCell (x : BG) (b : Nat) (gx : List Nat) (v : View) : Prop :=
  v.WF ∧ v.dims = x.c ∧
  ∀ cx, v.cell cx = x.v.cell ((if x.b = 1 then 0 else b) :: ((if x.g = [] then [] else gx) ++ cx))

/-- `for_each_cell_multi(x,y,z)`: with compatible batches and grids (the third operand having no grid of its own), the
function is called once per batch and grid point, in order, with the three cells there. -/
theorem C146_visits {σ : Type _} (x y z : BG) (hx : x.Ok) (hy : y.Ok) (hz : z.Ok) (B : Nat) (G : List Nat)
    (hB : CommonB [x.b, y.b, z.b] B) (h0 : 0 < x.b ∧ 0 < y.b ∧ 0 < z.b) (hG : CommonG [x.g, y.g, z.g] G) (hG' : x.g = G ∨ y.g = G)
    (lam : Nat → List Nat → View → View → View → σ → Res σ) (m : σ) :
    ∃ vx vy vz : Nat → List Nat → View,
      (∀ b gx, InRange gx G → x.IsCell b gx (vx b gx) ∧ y.IsCell b gx (vy b gx) ∧ z.IsCell b gx (vz b gx)) ∧
      forEach3 x y z lam m = Res.forM ((List.range B).flatMap fun b => (allIndices G).map fun gx => (b, gx)) m
        fun m p => lam p.1 p.2 (vx p.1 p.2) (vy p.1 p.2) (vz p.1 p.2) m := by
  have fx : x.Fits B G := ⟨hB.2 _ (by simp), hG.2 _ (by simp)⟩
  have fy : y.Fits B G := ⟨hB.2 _ (by simp), hG.2 _ (by simp)⟩
  have fz : z.Fits B G := ⟨hB.2 _ (by simp), hG.2 _ (by simp)⟩
  refine ⟨x.cellView, y.cellView, z.cellView, fun b gx hg => ⟨cellView_spec x hx fx b gx hg, cellView_spec y hy fy b gx hg,
    cellView_spec z hz fz b gx hg⟩, ?_⟩
  rw [forEach3_eq hx hy hz hB h0 ⟨by simp [hG'.imp Eq.symm Eq.symm], fun k hk => hG.2 k (by
    simp only [List.mem_cons, List.not_mem_nil, or_false] at hk ⊢; rcases hk with e | e <;> simp [e])⟩ fz.2]
  simp only [forM_flatMap, forM_map]

example : forEach3 (make 0 2 [2] [3]) (make 20 1 [2] [3]) (make 40 2 [] [5])
    (fun b gx vx vy vz (l : List (Nat × List Nat × Nat × Nat × Nat)) => .ok (l ++ [(b, gx, vx.off, vy.off, vz.off)])) [] =
    .ok [(0, [0], 0, 20, 40), (0, [1], 3, 23, 40), (1, [0], 6, 20, 45), (1, [1], 9, 23, 45)] := by decide

/-- `for_each_cell_multi_scalar(x,y,z)`: likewise with the elements of a tensor without cells as third argument. -/
theorem C146_scalar {σ : Type _} (x y z : BG) (hx : x.Ok) (hy : y.Ok) (hz : z.Ok) (hzc : z.c = []) (B : Nat) (G : List Nat)
    (hB : CommonB [x.b, y.b, z.b] B) (h0 : 0 < x.b ∧ 0 < y.b ∧ 0 < z.b) (hG : CommonG [x.g, y.g, z.g] G) (hG' : x.g = G ∨ y.g = G)
    (lam : Nat → List Nat → View → View → Nat → σ → Res σ) (m : σ) :
    ∃ vx vy : Nat → List Nat → View,
      (∀ b gx, InRange gx G → x.IsCell b gx (vx b gx) ∧ y.IsCell b gx (vy b gx)) ∧
      forEach3s x y z lam m = Res.forM ((List.range B).flatMap fun b => (allIndices G).map fun gx => (b, gx)) m
        fun m p => lam p.1 p.2 (vx p.1 p.2) (vy p.1 p.2)
          (z.v.cell ((if z.b = 1 then 0 else p.1) :: (if z.g = [] then [] else p.2))) m := by
  have fx : x.Fits B G := ⟨hB.2 _ (by simp), hG.2 _ (by simp)⟩
  have fy : y.Fits B G := ⟨hB.2 _ (by simp), hG.2 _ (by simp)⟩
  have fz : z.Fits B G := ⟨hB.2 _ (by simp), hG.2 _ (by simp)⟩
  refine ⟨x.cellView, y.cellView, fun b gx hg => ⟨cellView_spec x hx fx b gx hg, cellView_spec y hy fy b gx hg⟩, ?_⟩
  rw [forEach3s_eq hx hy hz hzc hB h0 ⟨by simp [hG'.imp Eq.symm Eq.symm], fun k hk => hG.2 k (by
    simp only [List.mem_cons, List.not_mem_nil, or_false] at hk ⊢; rcases hk with e | e <;> simp [e])⟩ fz.2]
  simp only [forM_flatMap, forM_map, elt, hz.ng_iff, List.append_nil]

example : forEach3s (make 0 2 [2] [3]) (make 20 1 [2] [3]) (make 40 2 [] [])
    (fun b gx vx vy p (l : List (Nat × List Nat × Nat × Nat × Nat)) => .ok (l ++ [(b, gx, vx.off, vy.off, p)])) [] =
    .ok [(0, [0], 0, 20, 40), (0, [1], 3, 23, 40), (1, [0], 6, 20, 41), (1, [1], 9, 23, 41)] := by decide

end BG
end Cnine
