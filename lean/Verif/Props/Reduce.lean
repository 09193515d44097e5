import Verif.Lemmas.Elem2
import Mathlib.Algebra.Ring.Defs
import Mathlib.Algebra.Ring.Int.Defs
import Mathlib.Algebra.BigOperators.Group.List.Lemmas
import Mathlib.Order.Defs.LinearOrder

/-! # C18, C19, C20: equality, reductions, element visitor -/

namespace Cnine

open View

variable {α : Type _}

theorem strides_nil {v : View} (hwf : v.WF) (h : v.dims = []) : v.strides = [] :=
  List.length_eq_zero_iff.1 (by rw [show v.strides.length = v.dims.length from hwf, h]; rfl)

theorem regular_cells (v : View) (h : isRegular v.strides v.dims = .ok true) (ix : List Nat)
    (hix : InRange ix v.dims) : v.cell ix = v.off + position v.dims ix := by
  have hreg := (isRegular_iff _ _).1 h
  simp [View.cell, hreg, dot_rmStrides _ _ hix.length]

/-! ## C18 -/

theorem cmp_iff [DecidableEq α] (v x : View) (m : Buf α) (l : List Nat)
    (hv : ∀ i ∈ l, (m (v.off + i)).isSome) (hx : ∀ i ∈ l, (m (x.off + i)).isSome) :
    eqView.cmp v x m l = .ok (decide (∀ i ∈ l, m (v.off + i) = m (x.off + i))) := by
  induction l with
  | nil => simp [eqView.cmp]
  | cons i l ih =>
    obtain ⟨a, ha⟩ := Option.isSome_iff_exists.1 (hv i (by simp))
    obtain ⟨b, hb⟩ := Option.isSome_iff_exists.1 (hx i (by simp))
    simp only [eqView.cmp, Buf.read, ha, hb, Res.ok_bind]
    by_cases e : a = b
    · rw [if_pos e, ih (fun j h => hv j (by simp [h])) (fun j h => hx j (by simp [h]))]
      congr 1
      simp [ha, hb, e]
    · rw [if_neg e]
      congr 1
      simp [ha, hb, e]

/-- For two regular (row-major) allocated views `x==y` returns true exactly when dims and all elements
agree, and false otherwise.  Missing: irregular views (see `C18_equality_irregular_fails`). -/
theorem C18_equality_partial [DecidableEq α] (v x : View) (m : Buf α)
    (hv : isRegular v.strides v.dims = .ok true) (hx : isRegular x.strides x.dims = .ok true)
    (hva : v.Alloc m) (hxa : x.Alloc m) :
    ∃ b, eqView v x m = .ok b ∧
      (b = true ↔ v.dims = x.dims ∧ ∀ ix, InRange ix v.dims → v.val m ix = x.val m ix) := by
  unfold eqView
  by_cases hd : v.dims = x.dims
  · have hpos : ∀ i, i ∈ List.range (asize v.dims) ↔ ∃ ix, InRange ix v.dims ∧ position v.dims ix = i := by
      intro i
      rw [asize_eq, ← map_position_allIndices, List.mem_map]
      simp only [mem_allIndices]
    have h1 : ∀ i ∈ List.range (asize v.dims), (m (v.off + i)).isSome := by
      intro i hi
      obtain ⟨ix, hix, rfl⟩ := (hpos i).1 hi
      rw [← regular_cells v hv ix hix]
      exact hva ix hix
    have h2 : ∀ i ∈ List.range (asize v.dims), (m (x.off + i)).isSome := by
      intro i hi
      obtain ⟨ix, hix, rfl⟩ := (hpos i).1 hi
      rw [hd] at hix ⊢
      rw [← regular_cells x hx ix hix]
      exact hxa ix hix
    rw [if_neg (by simpa using hd), hv, hx, Res.ok_bind, Res.ok_bind, if_pos ⟨rfl, rfl⟩]
    refine ⟨_, cmp_iff v x m _ h1 h2, ?_⟩
    rw [decide_eq_true_iff]
    constructor
    · intro h
      refine ⟨hd, fun ix hix => ?_⟩
      have := h _ ((hpos _).2 ⟨ix, hix, rfl⟩)
      rw [← regular_cells v hv ix hix] at this
      rw [hd] at hix this
      rw [← regular_cells x hx ix hix] at this
      exact this
    · rintro ⟨-, h⟩ i hi
      obtain ⟨ix, hix, rfl⟩ := (hpos i).1 hi
      have := h ix hix
      simp only [View.val] at this
      rw [regular_cells v hv ix hix] at this
      have hix' := hix
      rw [hd] at hix'
      rw [regular_cells x hx ix hix', ← hd] at this
      exact this
  · rw [if_pos (by simpa using hd)]
    exact ⟨false, rfl, by simp [hd]⟩

/-- Different dims always compare unequal, whatever the strides. -/
theorem C18_equality_dims [DecidableEq α] (v x : View) (m : Buf α) (h : v.dims ≠ x.dims) :
    eqView v x m = .ok false := by
  simp [eqView, h]

/-- Whenever one of the views is irregular (e.g. a transpose or a column block) the answer is `true`
without looking at any element. -/
theorem C18_equality_irregular [DecidableEq α] (v x : View) (m : Buf α) (hv : v.WF) (hx : x.WF)
    (hd : v.dims = x.dims)
    (h : isRegular v.strides v.dims ≠ .ok true ∨ isRegular x.strides x.dims ≠ .ok true) :
    eqView v x m = .ok true := by
  obtain ⟨a, ha⟩ := isRegular_ok v hv
  obtain ⟨b, hb⟩ := isRegular_ok x hx
  unfold eqView
  rw [if_neg (by simpa using hd), ha, hb, Res.ok_bind, Res.ok_bind, if_neg]
  rintro ⟨rfl, rfl⟩
  rcases h with h | h
  · exact h ha
  · exact h hb

/-- Two transposed matrices with different elements compare equal. -/
theorem C18_equality_irregular_fails :
    ∃ (v x : View) (m : Buf Nat), v.WF ∧ x.WF ∧ v.Alloc m ∧ x.Alloc m ∧ v.dims = x.dims ∧
      v.val m [1, 0] ≠ x.val m [1, 0] ∧ eqView v x m = .ok true := by
  exact ⟨⟨0, [2, 2], [1, 2]⟩, ⟨4, [2, 2], [1, 2]⟩, Buf.ofList [1, 2, 3, 4, 5, 6, 7, 8], by decide, by decide,
    by decide, by decide, rfl, by decide, by decide⟩

example : eqView ⟨0, [2], [1]⟩ ⟨2, [2], [1]⟩ (Buf.ofList [1, 2, 1, 2]) = .ok true ∧
    eqView ⟨0, [2], [1]⟩ ⟨2, [2], [1]⟩ (Buf.ofList [1, 2, 1, 3]) = .ok false := by decide
example : isRegular [3, 1] [2, 3] = .ok true ∧ (⟨0, [2, 3], [3, 1]⟩ : View).Alloc (Buf.ofList [1, 2, 3, 4, 5, 6]) := by
  decide

/-! ## C19 -/

theorem forM_read {β : Type _} (f : β → α → β) (m : Buf α) (l : List Nat) (t : β)
    (h : ∀ c ∈ l, (m c).isSome) :
    Res.forM l t (fun t c => do let a ← m.read c; .ok (f t a)) = .ok ((l.filterMap m).foldl f t) := by
  induction l generalizing t with
  | nil => rfl
  | cons c l ih =>
    obtain ⟨a, ha⟩ := Option.isSome_iff_exists.1 (h c (by simp))
    simp only [Res.forM_cons, Buf.read, ha, Res.ok_bind, List.filterMap_cons_some ha, List.foldl_cons]
    exact ih _ fun c hc => h c (by simp [hc])

theorem filterMap_cells (v : View) (m : Buf α) (e : List Nat → α)
    (he : ∀ ix, InRange ix v.dims → v.val m ix = some (e ix)) :
    v.cells.filterMap m = (allIndices v.dims).map e := by
  rw [View.cells, List.filterMap_map, ← List.filterMap_eq_map]
  apply List.filterMap_congr
  intro ix hix
  exact he ix (mem_allIndices.1 hix)

/-- The accumulating loops see each element exactly once, in some order. -/
theorem reduce_perm {β : Type _} (f : β → α → β) (t0 : β) (v : View) (hwf : v.WF)
    (hz : ∀ x ∈ v.dims.zip v.strides, x.2 = 0 → x.1 = 1) (m : Buf α) (e : List Nat → α)
    (he : ∀ ix, InRange ix v.dims → v.val m ix = some (e ix)) :
    ∃ l : List α, l.Perm ((allIndices v.dims).map e) ∧ reduce f t0 v m = .ok (l.foldl f t0) := by
  obtain ⟨c, hc⟩ := isContiguous_ok v hwf
  unfold reduce
  rw [hc, Res.ok_bind]
  cases c with
  | true =>
    obtain ⟨-, hp⟩ := contiguous_cells _ _ hc hz
    have hcells : ((List.range v.dims.prod).map (v.off + ·)).Perm v.cells := by
      rw [cells_eq_axCells v hwf]
      exact (hp.symm).map _
    refine ⟨((List.range v.dims.prod).map (v.off + ·)).filterMap m, ?_, ?_⟩
    · rw [← filterMap_cells v m e he]
      exact hcells.filterMap m
    · rw [if_pos rfl, asize_eq, loop, ← forM_read f m, forM_map]
      intro c hc
      have := hcells.mem_iff.1 hc
      rw [View.cells, List.mem_map] at this
      obtain ⟨ix, hix, rfl⟩ := this
      have := he ix (mem_allIndices.1 hix)
      simp only [View.val] at this
      simp [this]
  | false =>
    refine ⟨_, List.Perm.refl _, ?_⟩
    have hne : v.dims ≠ [] := by
      intro h
      rw [h, strides_nil hwf h] at hc
      cases hc
    rw [if_neg (by simp), forEachIx_eq v hwf hne, ← filterMap_cells v m e he, ← forM_read f m, View.cells,
      forM_map]
    intro c hc
    rw [View.cells, List.mem_map] at hc
    obtain ⟨ix, hix, rfl⟩ := hc
    have := he ix (mem_allIndices.1 hix)
    simp only [View.val] at this
    simp [this]

theorem foldl_add_sum {β : Type _} [AddCommMonoid β] (g : α → β) (l : List α) (t : β) :
    l.foldl (fun t a => t + g a) t = t + (l.map g).sum := by
  induction l generalizing t with
  | nil => simp
  | cons a l ih => simp [ih, add_assoc]

/-- `sum()` is the sum of all elements.  Missing: views with a broadcast (stride 0) axis of extent
different from one, see `C19_sum_broadcast_fails`. -/
theorem C19_sum_partial [AddCommMonoid α] (v : View) (hwf : v.WF)
    (hz : ∀ x ∈ v.dims.zip v.strides, x.2 = 0 → x.1 = 1) (m : Buf α) (e : List Nat → α)
    (he : ∀ ix, InRange ix v.dims → v.val m ix = some (e ix)) :
    sumView v m = .ok ((allIndices v.dims).map e).sum := by
  unfold sumView
  split
  · rename_i h0
    rw [asize_eq] at h0
    have : allIndices v.dims = [] := List.length_eq_zero_iff.1 (by rw [allIndices_length, h0])
    simp [this]
  · obtain ⟨l, hl, h⟩ := reduce_perm (fun t a => t + a) 0 v hwf hz m e he
    rw [h]
    have := foldl_add_sum (fun a : α => a) l 0
    simp only [zero_add, List.map_id'] at this
    rw [this, hl.sum_eq]

/-- `norm2()` is the sum of squares of all elements.  Missing: broadcast views, as for `sum`. -/
theorem C19_norm2_partial [NonUnitalNonAssocSemiring α] (v : View) (hwf : v.WF)
    (hz : ∀ x ∈ v.dims.zip v.strides, x.2 = 0 → x.1 = 1) (m : Buf α) (e : List Nat → α)
    (he : ∀ ix, InRange ix v.dims → v.val m ix = some (e ix)) :
    norm2View v m = .ok ((allIndices v.dims).map fun ix => e ix * e ix).sum := by
  obtain ⟨l, hl, h⟩ := reduce_perm (fun t a => t + a * a) (0 : α) v hwf hz m e he
  unfold norm2View
  rw [h]
  have := foldl_add_sum (fun a : α => a * a) l 0
  rw [this, zero_add, (hl.map _).sum_eq, List.map_map]
  rfl

theorem foldl_max [LinearOrder α] (l : List α) (t : α) :
    ((l.foldl (fun t a => if t < a then a else t) t = t ∨ l.foldl (fun t a => if t < a then a else t) t ∈ l)) ∧
    t ≤ l.foldl (fun t a => if t < a then a else t) t ∧
    ∀ a ∈ l, a ≤ l.foldl (fun t a => if t < a then a else t) t := by
  induction l generalizing t with
  | nil => simp
  | cons b l ih =>
    obtain ⟨h1, h2, h3⟩ := ih (if t < b then b else t)
    simp only [List.foldl_cons]
    refine ⟨?_, ?_, ?_⟩
    · rcases h1 with h | h
      · rw [h]; split
        · right; simp
        · left; rfl
      · right; exact List.mem_cons_of_mem _ h
    · refine le_trans ?_ h2
      split
      · rename_i h; exact le_of_lt h
      · exact le_refl _
    · intro a ha
      rcases List.mem_cons.1 ha with rfl | ha
      · refine le_trans ?_ h2
        split
        · exact le_refl _
        · rename_i h; exact le_of_not_gt h
      · exact h3 a ha

theorem extremum_core [LinearOrder α] [Zero α] (v : View) (hwf : v.WF)
    (hz : ∀ x ∈ v.dims.zip v.strides, x.2 = 0 → x.1 = 1) (hp : 0 < asize v.dims) (m : Buf α) (e : List Nat → α)
    (he : ∀ ix, InRange ix v.dims → v.val m ix = some (e ix)) :
    ∃ t, extremum (fun a t => decide (t < a)) v m = .ok t ∧ (∃ ix, InRange ix v.dims ∧ t = e ix) ∧
      ∀ ix, InRange ix v.dims → e ix ≤ t := by
  rw [asize_eq] at hp
  have hpd := pos_of_prod_pos hp
  -- the first element
  have h0 : InRange (v.dims.map fun _ => 0) v.dims := by
    generalize v.dims = D at hpd
    induction D with
    | nil => exact inRange_nil
    | cons d D ih => exact inRange_cons.2 ⟨hpd d (by simp), ih fun d h => hpd d (by simp [h])⟩
  have hc0 : v.cell (v.dims.map fun _ => 0) = v.off := by
    have : ∀ (s D : List Nat), dot s (D.map fun _ => 0) = 0 := by
      intro s D
      induction D generalizing s with
      | nil => simp
      | cons d D ih => cases s with
        | nil => simp
        | cons a s => rw [List.map_cons, dot_cons, ih, Nat.mul_zero]
    rw [View.cell, this, Nat.add_zero]
  have hr0 := he _ h0
  simp only [View.val, hc0] at hr0
  unfold extremum
  rw [if_neg (by rw [asize_eq]; omega)]
  simp only [Buf.read, hr0, Res.ok_bind]
  obtain ⟨l, hl, h⟩ := reduce_perm (fun t a => if decide (t < a) then a else t) (e (v.dims.map fun _ => 0)) v hwf hz m e he
  refine ⟨_, h, ?_⟩
  simp only [decide_eq_true_eq]
  obtain ⟨h1, h2, h3⟩ := foldl_max l (e (v.dims.map fun _ => 0))
  constructor
  · rcases h1 with h | h
    · exact ⟨_, h0, h⟩
    · have := hl.mem_iff.1 h
      rw [List.mem_map] at this
      obtain ⟨ix, hix, e'⟩ := this
      exact ⟨ix, mem_allIndices.1 hix, e'.symm⟩
  · intro ix hix
    exact h3 _ (hl.mem_iff.2 (List.mem_map_of_mem (mem_allIndices.2 hix)))

/-- `max()` of a non-empty view is attained and bounds every element; an empty view gives 0.
Missing: broadcast views, as for `sum`. -/
theorem C19_max_partial [LinearOrder α] [Zero α] (v : View) (hwf : v.WF)
    (hz : ∀ x ∈ v.dims.zip v.strides, x.2 = 0 → x.1 = 1) (m : Buf α) (e : List Nat → α)
    (he : ∀ ix, InRange ix v.dims → v.val m ix = some (e ix)) :
    ∃ t, extremum (fun a t => decide (a > t)) v m = .ok t ∧
      ((∀ ix, ¬ InRange ix v.dims) → t = 0) ∧
      ((∃ ix, InRange ix v.dims) → (∃ ix, InRange ix v.dims ∧ t = e ix) ∧ ∀ ix, InRange ix v.dims → e ix ≤ t) := by
  by_cases hp : asize v.dims = 0
  · refine ⟨0, by simp [extremum, hp], fun _ => rfl, ?_⟩
    rintro ⟨ix, hix⟩
    have := position_lt hix
    rw [asize_eq] at hp
    omega
  · obtain ⟨t, h1, h2, h3⟩ := extremum_core v hwf hz (by omega) m e he
    refine ⟨t, h1, ?_, fun _ => ⟨h2, h3⟩⟩
    intro h
    obtain ⟨ix, hix, -⟩ := h2
    exact absurd hix (h ix)

/-- `min()` likewise. -/
theorem C19_min_partial [LinearOrder α] [Zero α] (v : View) (hwf : v.WF)
    (hz : ∀ x ∈ v.dims.zip v.strides, x.2 = 0 → x.1 = 1) (m : Buf α) (e : List Nat → α)
    (he : ∀ ix, InRange ix v.dims → v.val m ix = some (e ix)) :
    ∃ t, extremum (fun a t => decide (a < t)) v m = .ok t ∧
      ((∀ ix, ¬ InRange ix v.dims) → t = 0) ∧
      ((∃ ix, InRange ix v.dims) → (∃ ix, InRange ix v.dims ∧ t = e ix) ∧ ∀ ix, InRange ix v.dims → t ≤ e ix) :=
  C19_max_partial (α := αᵒᵈ) v hwf hz m e he

theorem forM_read2 [AddCommMonoid α] (f : α → α → α) (m : Buf α) (l : List (List Nat)) (c d : List Nat → Nat)
    (a b : List Nat → α) (t : α) (h1 : ∀ ix ∈ l, m (c ix) = some (a ix)) (h2 : ∀ ix ∈ l, m (d ix) = some (b ix)) :
    Res.forM l t (fun t ix => do
      let p ← m.read (c ix)
      let q ← m.read (d ix)
      .ok (t + f p q)) = .ok (t + (l.map fun ix => f (a ix) (b ix)).sum) := by
  induction l generalizing t with
  | nil => simp
  | cons i l ih =>
    simp only [Res.forM_cons, Buf.read, h1 i (by simp), h2 i (by simp), Res.ok_bind, List.map_cons, List.sum_cons]
    rw [← add_assoc]
    exact ih _ (fun ix h => h1 ix (by simp [h])) (fun ix h => h2 ix (by simp [h]))

theorem inpWith_eq [AddCommMonoid α] (f : α → α → α) (v y : View) (hv : v.WF) (hy : y.WF) (hd : v.dims = y.dims)
    (m : Buf α) (a b : List Nat → α) (ha : ∀ ix, InRange ix v.dims → v.val m ix = some (a ix))
    (hb : ∀ ix, InRange ix y.dims → y.val m ix = some (b ix)) :
    inpWith f v y m = .ok ((allIndices v.dims).map fun ix => f (a ix) (b ix)).sum := by
  obtain ⟨p, hp⟩ := isRegular_ok v hv
  obtain ⟨q, hq⟩ := isRegular_ok y hy
  have key := forM_read2 f m (allIndices v.dims) v.cell y.cell a b 0
    (fun ix hix => ha ix (mem_allIndices.1 hix)) (fun ix hix => hb ix (hd ▸ mem_allIndices.1 hix))
  rw [zero_add] at key
  unfold inpWith
  rw [hp, hq, Res.ok_bind, Res.ok_bind, ← key]
  split
  · rename_i h
    obtain ⟨rfl, rfl⟩ := h
    rw [asize_eq, loop, ← map_position_allIndices, forM_map]
    apply forM_congr
    intro ix hix t
    rw [regular_cells v hp ix (mem_allIndices.1 hix), regular_cells y hq ix (hd ▸ mem_allIndices.1 hix), hd]
  · rename_i h
    have hne : v.dims ≠ [] := by
      intro h0
      apply h
      have h0' : y.dims = [] := hd ▸ h0
      rw [h0, strides_nil hv h0] at hp
      rw [h0', strides_nil hy h0'] at hq
      have e : isRegular ([] : List Nat) [] = .ok true := rfl
      rw [e] at hp hq
      cases hp; cases hq
      exact ⟨rfl, rfl⟩
    rw [forEachIx_eq v hv hne]
    apply forM_congr
    intro ix hix t
    have hl := (mem_allIndices.1 hix).length
    have : y.strides.length = y.dims.length := hy
    rw [addr_eq y ix (by rw [this, ← hd]; omega)]
    rfl

/-- `inp(y)` is the sum of products of corresponding elements, for all strides (including broadcast),
and different dims are refused. -/
theorem C19_inp [NonUnitalNonAssocSemiring α] (v y : View) (hv : v.WF) (hy : y.WF) (m : Buf α) :
    (v.dims ≠ y.dims → inpView v y m = .throw) ∧
    ∀ (_ : v.dims = y.dims) (a b : List Nat → α) (_ : ∀ ix, InRange ix v.dims → v.val m ix = some (a ix))
      (_ : ∀ ix, InRange ix y.dims → y.val m ix = some (b ix)),
      inpView v y m = .ok ((allIndices v.dims).map fun ix => a ix * b ix).sum := by
  constructor
  · intro h; simp [inpView, h]
  · intro hd a b ha hb
    unfold inpView
    simp only [hd, decide_true, Res.assrt_true, Res.ok_bind]
    rw [inpWith_eq _ v y hv hy hd m a b ha hb, hd]

/-- `diff2(x)` is the sum of squared differences when the dims agree.  Missing: the code only compares
the number of elements, see `C19_diff2_shape_fails`. -/
theorem C19_diff2_partial [NonUnitalNonAssocRing α] (v x : View) (hv : v.WF) (hx : x.WF) (hd : v.dims = x.dims)
    (m : Buf α) (a b : List Nat → α) (ha : ∀ ix, InRange ix v.dims → v.val m ix = some (a ix))
    (hb : ∀ ix, InRange ix x.dims → x.val m ix = some (b ix)) :
    diff2View v x m = .ok ((allIndices v.dims).map fun ix => (b ix - a ix) * (b ix - a ix)).sum := by
  unfold diff2View
  simp only [hd, decide_true, Res.assrt_true, Res.ok_bind]
  rw [inpWith_eq _ v x hv hx hd m a b ha hb, hd]

/-- A 2x3 transposed view against a 3x2 one passes the check and reads outside both. -/
theorem C19_diff2_shape_fails :
    ∃ (v x : View) (m : Buf Int), v.WF ∧ x.WF ∧ v.Alloc m ∧ x.Alloc m ∧ v.dims ≠ x.dims ∧
      diff2View v x m = .ub := by
  exact ⟨⟨0, [2, 3], [1, 2]⟩, ⟨6, [3, 2], [1, 3]⟩, Buf.ofList [1, 2, 3, 4, 5, 6, 7, 8, 9, 10, 11, 12], by decide,
    by decide, by decide, by decide, by decide, by decide⟩

/-- A vector of length 4 broadcast to 3x4: `sum()` takes the contiguous path and reads 12 cells from a
buffer of 4. -/
theorem C19_sum_broadcast_fails :
    ∃ (v : View) (m : Buf Int), v.WF ∧ v.Alloc m ∧ sumView v m = .ub ∧ norm2View v m = .ub ∧
      extremum (fun a t => decide (a > t)) v m = .ub :=
  ⟨⟨0, [3, 4], [0, 1]⟩, Buf.ofList [1, 2, 3, 4], by decide, by decide, by decide, by decide, by decide⟩

-- contiguous but permuted axes; a strided block; a scalar
example : sumView ⟨0, [2, 3], [1, 2]⟩ (Buf.ofList [1, 2, 3, 4, 5, (6 : Int)]) = .ok 21 := by decide
example : sumView ⟨1, [2, 2], [3, 1]⟩ (Buf.ofList [1, 2, 3, 4, 5, (6 : Int)]) = .ok 16 := by decide
example : norm2View ⟨1, [], []⟩ (Buf.ofList [1, (2 : Int)]) = .ok 4 := by decide
example : extremum (fun a t => decide (a > t)) ⟨1, [2, 2], [3, 1]⟩ (Buf.ofList [1, 2, 9, 4, 5, (6 : Int)]) = .ok 9 ∧
    extremum (fun a t => decide (a < t)) ⟨1, [2, 2], [3, 1]⟩ (Buf.ofList [1, 2, 9, 4, 5, (6 : Int)]) = .ok 2 := by decide
example : ∀ x ∈ ([2, 3] : List Nat).zip [1, 2], x.2 = 0 → x.1 = 1 := by decide
example : inpView ⟨0, [2, 2], [0, 1]⟩ ⟨2, [2, 2], [1, 2]⟩ (Buf.ofList [1, 2, 3, 4, 5, (6 : Int)]) =
    .ok (1 * 3 + 2 * 5 + 1 * 4 + 2 * 6) := by decide

end Cnine
