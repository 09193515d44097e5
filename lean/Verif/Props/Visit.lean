import Verif.Lemmas.Cellwise
import Verif.Props.Reduce

/-! # C20, C78, C79: element visitor, scalar addition, set_zero, inplace_times -/

namespace Cnine

open View

variable {α : Type _}

/-! ## C20 -/

/-- `for_each(lambda)` on a tensor of rank at least one runs the callback once for every in-range index,
in row-major order, on the cell of that index.  Missing: rank 0, see `C20_visit_scalar_fails`. -/
theorem C20_visit_partial {σ : Type _} (v : View) (hwf : v.WF) (hne : v.dims ≠ []) (s : σ) (f : Nat → σ → Res σ) :
    v.forEach s f = Res.forM (allIndices v.dims) s (fun s ix => f (v.cell ix) s) := by
  rw [forEach_eq v hwf hne, View.cells, forM_map]

/-- The callbacks seen by a recording visitor. -/
theorem C20_visit_trace_partial (v : View) (hwf : v.WF) (hne : v.dims ≠ []) :
    v.forEach ([] : List Nat) (fun c tr => .ok (tr ++ [c])) = .ok ((allIndices v.dims).map v.cell) := by
  rw [forEach_eq v hwf hne, View.cells]
  have : ∀ (l tr : List Nat), Res.forM l tr (fun tr c => .ok (tr ++ [c])) = .ok (tr ++ l) := by
    intro l
    induction l with
    | nil => simp
    | cons a l ih => intro tr; rw [Res.forM_cons, Res.ok_bind, ih]; simp
  rw [this]; rfl

/-- A rank-0 tensor has one element, but the callback is never run. -/
theorem C20_visit_scalar_fails (o : Nat) :
    (allIndices (⟨o, [], []⟩ : View).dims).length = 1 ∧
    ∀ {σ : Type} (s : σ) (f : Nat → σ → Res σ), (⟨o, [], []⟩ : View).forEach s f = .ok s :=
  ⟨rfl, fun _ _ => rfl⟩

/-- `add(x)` with a scalar adds `x` (`f a = a+x`) to each element of a tensor of rank at least one with
distinct cells and changes nothing else.  Missing: rank 0, see `C20_add_scalar_rank0_fails`. -/
theorem C20_add_scalar_partial (f : α → α) (v : View) (hwf : v.WF) (hs : ∀ s ∈ v.strides, s < intMax)
    (hne : v.dims ≠ []) (hdist : v.Distinct) (m : Buf α) (ha : v.Alloc m) :
    ∃ m', addScalar f v m = .ok m' ∧ Updated v (fun ix => (v.val m ix).map f) m m' := by
  unfold addScalar
  split
  · rename_i h0
    rw [asize_eq] at h0
    refine ⟨m, rfl, fun ix hix => ?_, fun c _ => rfl⟩
    have := position_lt hix
    omega
  · obtain ⟨h1, h2, -⟩ := C15_scrunch v hwf hs
    obtain ⟨m', h3, h4⟩ := cellwise_updated f v hdist m ha _ h2
    exact ⟨m', by rw [forEach_eq _ h1 (scrunch_ne v hwf hs hne)]; exact h3, h4⟩

/-- On a rank-0 tensor `add(x)` does nothing. -/
theorem C20_add_scalar_rank0_fails (f : α → α) (o : Nat) (m : Buf α) :
    addScalar f ⟨o, [], []⟩ m = .ok m := by
  rfl

example : (⟨3, [2, 3], [1, 2]⟩ : View).forEach ([] : List Nat) (fun c tr => .ok (tr ++ [c])) = .ok [3, 5, 7, 4, 6, 8] := by
  decide
example : (addScalar (· + 5) ⟨1, [2, 2], [3, 1]⟩ (Buf.ofList [0, 0, 0, 0, 0, 0])).bind
    (fun m => .ok ((List.range 6).map m)) = .ok [some 0, some 5, some 5, some 0, some 5, some 5] := by decide
example : (⟨1, [2, 2], [3, 1]⟩ : View).Distinct ∧ (⟨1, [2, 2], [3, 1]⟩ : View).Alloc (Buf.ofList [0, 0, 0, 0, 0, 0]) := by
  decide

/-! ## C78 -/

/-- `set_zero()` on a contiguous view with distinct cells makes every element zero and changes nothing
else.  Missing: other views are left unchanged with only a warning, see `C78_set_zero_strided_fails`. -/
theorem C78_set_zero_partial (zero : α) (v : View) (hwf : v.WF) (hdist : v.Distinct)
    (hc : isContiguous v.strides v.dims = .ok true) (m : Buf α) (ha : v.Alloc m) :
    ∃ m', setZero zero v m = .ok m' ∧ Updated v (fun _ => some zero) m m' := by
  unfold setZero
  rw [hc, Res.ok_bind, if_pos rfl, asize_eq]
  by_cases hp : v.dims.prod = 0
  · rw [hp]
    refine ⟨m, rfl, fun ix hix => ?_, fun c _ => rfl⟩
    have := position_lt hix
    omega
  · obtain ⟨hperm, -⟩ := distinct_contiguous v hwf (by omega) hdist hc
    have hcells : ((List.range v.dims.prod).map (v.off + ·)).Perm v.cells := by
      rw [cells_eq_axCells v hwf]
      exact hperm.symm.map _
    obtain ⟨m', h1, h2, h3⟩ := cellwise_updated (fun _ => zero) v hdist m ha _ hcells
    refine ⟨m', ?_, ?_, h3⟩
    · rw [← h1, forM_map, loop]
      apply forM_congr
      intro i _ m
      unfold Buf.read Buf.write
      cases m (v.off + i) <;> rfl
    · intro ix hix
      rw [h2 ix hix]
      obtain ⟨a, e⟩ := Option.isSome_iff_exists.1 (ha ix hix)
      simp [View.val, e]

/-- A block of a larger matrix is not zeroed. -/
theorem C78_set_zero_strided_fails :
    ∃ (v : View) (m : Buf Nat), v.WF ∧ v.Distinct ∧ v.Alloc m ∧ setZero 0 v m = .ok m ∧ v.val m [0, 0] = some 7 := by
  exact ⟨⟨0, [2, 2], [3, 1]⟩, Buf.ofList [7, 7, 7, 7, 7, 7], by decide, by decide, by decide, by rfl, by rfl⟩

/-- On a broadcast view `set_zero` writes beyond the cells of the view. -/
theorem C78_set_zero_broadcast_fails :
    ∃ (v : View) (m : Buf Nat), v.WF ∧ v.Alloc m ∧ setZero 0 v m = .ub := by
  exact ⟨⟨0, [3, 2], [0, 1]⟩, Buf.ofList [7, 7], by decide, by decide, by rfl⟩

example : isContiguous [1, 2] [2, 3] = .ok true ∧ (⟨1, [2, 3], [1, 2]⟩ : View).Distinct := by decide
example : (setZero 0 ⟨1, [2, 2], [1, 2]⟩ (Buf.ofList [7, 7, 7, 7, 7, 7])).bind
    (fun m => .ok ((List.range 6).map m)) = .ok [some 7, some 0, some 0, some 0, some 0, some 7] := by decide

/-! ## C79 -/

/-- `inplace_times(c)` (`f a = a*c`) updates every element of a view with distinct cells exactly once and
changes nothing else, on both paths and including rank 0. -/
theorem C79_inplace_times (f : α → α) (v : View) (hwf : v.WF) (hdist : v.Distinct) (m : Buf α) (ha : v.Alloc m) :
    ∃ m', inplaceTimes f v m = .ok m' ∧ Updated v (fun ix => (v.val m ix).map f) m m' := by
  obtain ⟨c, hc⟩ := isContiguous_ok v hwf
  unfold inplaceTimes
  rw [hc, Res.ok_bind]
  cases c with
  | true =>
    rw [if_pos rfl, asize_eq]
    by_cases hp : v.dims.prod = 0
    · rw [hp]
      refine ⟨m, rfl, fun ix hix => ?_, fun c _ => rfl⟩
      have := position_lt hix
      omega
    · obtain ⟨hperm, -⟩ := distinct_contiguous v hwf (by omega) hdist hc
      have hcells : ((List.range v.dims.prod).map (v.off + ·)).Perm v.cells := by
        rw [cells_eq_axCells v hwf]
        exact hperm.symm.map _
      obtain ⟨m', h1, h2⟩ := cellwise_updated f v hdist m ha _ hcells
      exact ⟨m', by rw [← h1, forM_map, loop], h2⟩
  | false =>
    have hne : v.dims ≠ [] := by
      intro h
      rw [h, strides_nil hwf h] at hc
      cases hc
    obtain ⟨m', h1, h2⟩ := cellwise_updated f v hdist m ha _ (List.Perm.refl _)
    refine ⟨m', ?_, h2⟩
    rw [if_neg (by simp), forEachIx_eq v hwf hne, ← h1, View.cells, forM_map]

example : (inplaceTimes (· * 2) ⟨1, [2, 2], [3, 1]⟩ (Buf.ofList [1, 2, 3, 4, 5, 6])).bind
    (fun m => .ok ((List.range 6).map m)) = .ok [some 1, some 4, some 6, some 4, some 10, some 12] := by decide

end Cnine
