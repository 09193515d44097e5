import Verif.Model.TVMore
import Verif.Props.Reduce
import Verif.Lemmas.Spaces
import Verif.Lemmas.CView

/-! # C531–C536 hashes and views of tensors -/

namespace Cnine
namespace TV

open View TFun

variable {α : Type}

/-! ## C531 -/

/-- The entries of a tensor in row-major order. -/
def entries (dims : List Nat) (X : List Nat → α) : List α := (allIndices dims).map X

theorem forM_mix (he : α → BitVec 64) (m : Buf α) (l : List (List Nat)) (c : List Nat → Nat) (a : List Nat → α) (t : BitVec 64)
    (h : ∀ ix ∈ l, m (c ix) = some (a ix)) :
    Res.forM l t (fun t ix => do let p ← m.read (c ix); .ok (mix t (he p))) = .ok ((l.map a).foldl (fun t x => mix t (he x)) t) := by
  induction l generalizing t with
  | nil => rfl
  | cons i l ih =>
    simp only [Res.forM_cons, Buf.read, h i (by simp), Res.ok_bind, List.map_cons, List.foldl_cons]
    exact ih _ fun ix h' => h ix (by simp [h'])

/-- The hash is computed from the shape and the entries in row-major order, whatever the strides. -/
theorem C531_hash (hi : Nat → BitVec 64) (he : α → BitVec 64) (v : View) (hw : v.WF) (m : Buf α) (X : List Nat → α) (hX : Shows m v X) :
    hash hi he v m = .ok ((entries v.dims X).foldl (fun t x => mix t (he x)) (hashDims hi v.dims)) := by
  obtain ⟨p, hp⟩ := isRegular_ok v hw
  have key := forM_mix he m (allIndices v.dims) v.cell X (hashDims hi v.dims) (fun ix hix => hX ix (mem_allIndices.1 hix))
  unfold hash
  rw [hp, Res.ok_bind, entries, ← key]
  cases p with
  | true =>
    rw [if_pos rfl, asize_eq, loop, ← map_position_allIndices, forM_map]
    apply forM_congr
    intro ix hix t
    rw [regular_cells v hp ix (mem_allIndices.1 hix)]
  | false =>
    have hne : v.dims ≠ [] := by
      intro h0
      rw [h0, strides_nil hw h0] at hp
      cases hp
    rw [if_neg (by simp), forEachIx_eq v hw hne]

/-- Two tensors with the same shape and the same entries have the same hash, wherever and with whatever strides they are stored. -/
theorem C531_equal (hi : Nat → BitVec 64) (he : α → BitVec 64) (v w : View) (hv : v.WF) (hw : w.WF) (hd : v.dims = w.dims)
    (m m' : Buf α) (X : List Nat → α) (hX : Shows m v X) (hY : Shows m' w X) :
    ∃ t, hash hi he v m = .ok t ∧ hash hi he w m' = .ok t :=
  ⟨_, C531_hash hi he v hv m X hX, by rw [C531_hash hi he w hw m' X hY, hd]⟩

example : hash (BitVec.ofNat 64) (BitVec.ofNat 64) ⟨0, [2, 2], [2, 1]⟩ (Buf.ofList [5, 6, 7, 8]) =
    hash (BitVec.ofNat 64) (BitVec.ofNat 64) ⟨1, [2, 2], [1, 3]⟩ (Buf.ofList [0, 5, 7, 0, 6, 8]) ∧
    hash (BitVec.ofNat 64) (BitVec.ofNat 64) ⟨0, [2, 2], [2, 1]⟩ (Buf.ofList [5, 6, 7, 8]) ≠
    hash (BitVec.ofNat 64) (BitVec.ofNat 64) ⟨0, [2, 2], [2, 1]⟩ (Buf.ofList [6, 5, 7, 8]) := by decide

/-! ## C532 -/

theorem foldl_mix (l : List (BitVec 64)) (t : BitVec 64) : l.foldl mix t = (t <<< l.length) ^^^ l.foldl mix 0 := by
  induction l generalizing t with
  | nil => simp
  | cons h l ih =>
    simp only [List.foldl_cons]
    rw [ih (mix t h), ih (mix 0 h)]
    simp only [mix, List.length_cons, BitVec.zero_xor, BitVec.shiftLeft_xor_distrib, ← BitVec.shiftLeft_add]
    rw [Nat.add_comm 1, BitVec.xor_assoc, show (0 : BitVec 64) <<< (l.length + 1) = 0 from BitVec.zero_shiftLeft _]
    simp

theorem foldl_mix_last (t : BitVec 64) (l : List (BitVec 64)) (h : 64 ≤ l.length) :
    l.foldl mix t = (l.drop (l.length - 63)).foldl mix 0 := by
  have e : l.length - 63 = (l.length - 64) + 1 := by omega
  conv_lhs => rw [← List.take_append_drop (l.length - 63) l, List.foldl_append]
  rw [foldl_mix]
  have hl : (l.drop (l.length - 63)).length = 63 := by rw [List.length_drop]; omega
  rw [hl]
  have : ∃ s h', (l.take (l.length - 63)).foldl mix t = mix s h' := by
    rcases List.eq_nil_or_concat (l.take (l.length - 63)) with h' | ⟨L, b, h'⟩
    · have := congrArg List.length h'
      rw [List.length_take] at this
      simp at this; omega
    · rw [h', List.concat_eq_append, List.foldl_append]
      exact ⟨_, _, rfl⟩
  obtain ⟨s, h', e'⟩ := this
  rw [e', mix, ← BitVec.shiftLeft_add, BitVec.shiftLeft_eq_zero (by omega), BitVec.zero_xor]

/-- In tensors of 64 or more entries only the last 63 entries count: tensors of any shapes that agree in those have the same hash. -/
theorem C532_last (hi : Nat → BitVec 64) (he : α → BitVec 64) (v w : View) (hv : v.WF) (hw : w.WF) (m m' : Buf α) (X Y : List Nat → α)
    (hX : Shows m v X) (hY : Shows m' w Y) (h1 : 64 ≤ v.dims.prod) (h2 : 64 ≤ w.dims.prod)
    (h : (entries v.dims X).drop (v.dims.prod - 63) = (entries w.dims Y).drop (w.dims.prod - 63)) :
    ∃ t, hash hi he v m = .ok t ∧ hash hi he w m' = .ok t := by
  have key : ∀ (l : List α) t, l.foldl (fun t x => mix t (he x)) t = (l.map he).foldl mix t := by
    intro l t; rw [List.foldl_map]
  have len : ∀ (d : List Nat) (Z : List Nat → α), ((entries d Z).map he).length = d.prod := by
    intro d Z; simp [entries, allIndices_length]
  refine ⟨_, C531_hash hi he v hv m X hX, ?_⟩
  have e1 := foldl_mix_last (hashDims hi v.dims) ((entries v.dims X).map he) (by rw [len]; exact h1)
  have e2 := foldl_mix_last (hashDims hi w.dims) ((entries w.dims Y).map he) (by rw [len]; exact h2)
  rw [C531_hash hi he w hw m' Y hY, key, key, e1, e2, len, len, ← List.map_drop, ← List.map_drop, h]

/-- 64 entries, the first of which differs. -/
example : hash (BitVec.ofNat 64) (BitVec.ofNat 64) ⟨0, [64], [1]⟩ (Buf.ofList (List.range 64)) =
    hash (BitVec.ofNat 64) (BitVec.ofNat 64) ⟨0, [8, 8], [8, 1]⟩ (Buf.ofList (100 :: (List.range 64).tail)) := by
  decide +kernel

/-! ## C533 -/

/-- Row-major tensors that compare equal have the same hash.  Missing: other strides, see `C533_strides_fails`. -/
theorem C533_equal_partial [DecidableEq α] (hi : Nat → BitVec 64) (he : α → BitVec 64) (v w : View)
    (hv : isRegular v.strides v.dims = .ok true) (hw : isRegular w.strides w.dims = .ok true) (m : Buf α) (X Y : List Nat → α)
    (hX : Shows m v X) (hY : Shows m w Y) (h : v.eqView w m = .ok true) :
    ∃ t, hash hi he v m = .ok t ∧ hash hi he w m = .ok t := by
  obtain ⟨b, e, hb⟩ := C18_equality_partial v w m hv hw (shows_alloc hX) (shows_alloc hY)
  rw [e] at h
  cases h
  obtain ⟨hd, hval⟩ := hb.1 rfl
  have wf : ∀ u : View, isRegular u.strides u.dims = .ok true → u.WF := by
    intro u hu
    rw [View.WF, (isRegular_iff _ _).1 hu, rmStrides_length]
  refine C531_equal hi he v w (wf v hv) (wf w hw) hd m m X hX fun ix hix => ?_
  rw [← hval ix (by rw [hd]; exact hix)]
  exact hX ix (by rw [hd]; exact hix)

/-- A matrix and its transpose compare equal but have different hashes. -/
theorem C533_strides_fails : ∃ (v w : View) (m : Buf Nat), v.WF ∧ w.WF ∧ v.Alloc m ∧ w.Alloc m ∧ v.eqView w m = .ok true ∧
    hash (BitVec.ofNat 64) (BitVec.ofNat 64) v m ≠ hash (BitVec.ofNat 64) (BitVec.ofNat 64) w m :=
  ⟨⟨0, [2, 2], [2, 1]⟩, ⟨0, [2, 2], [1, 2]⟩, Buf.ofList [1, 2, 3, 4], rfl, rfl, by decide, by decide, by decide, by decide⟩

example : (⟨0, [2, 2], [2, 1]⟩ : View).eqView ⟨4, [2, 2], [2, 1]⟩ (Buf.ofList [1, 2, 3, 4, 1, 2, 3, 4]) = .ok true := by decide

/-! ## C534 -/

/-- The views of order one, two and three see the entries of the tensor, and sizes and strides are those of the tensor. -/
theorem C534_views (v : View) (hw : v.WF) :
    (∀ n, v.dims = [n] → ∃ r, view1 v = .ok r ∧ r.n0 = n ∧ ∀ i, r.cell i = v.cell [i]) ∧
    (∀ n k, v.dims = [n, k] → ∃ r, view2 v = .ok r ∧ r.n0 = n ∧ r.n1 = k ∧ ∀ i j, r.cell i j = v.cell [i, j]) ∧
    (∀ n k l, v.dims = [n, k, l] → ∃ r, view3 v = .ok r ∧ r.n0 = n ∧ r.n1 = k ∧ r.n2 = l ∧ ∀ i j a, r.cell i j a = v.cell [i, j, a]) := by
  have hw : v.strides.length = v.dims.length := hw
  refine ⟨fun n h => ?_, fun n k h => ?_, fun n k l h => ?_⟩ <;> rw [h] at hw
  · obtain ⟨s, hs⟩ := List.length_eq_one_iff.1 hw
    refine ⟨⟨v.off, n, s⟩, by simp [view1, h, hs, Res.get], rfl, fun i => by simp [RV1.cell, View.cell, hs, dot]⟩
  · obtain ⟨s, t, hs⟩ := List.length_eq_two.1 hw
    refine ⟨⟨v.off, n, k, s, t⟩, by simp [view2, h, hs, Res.get], rfl, rfl, fun i j => by simp [RV2.cell, View.cell, hs, dot]⟩
  · obtain ⟨s, t, u, hs⟩ := List.length_eq_three.1 hw
    refine ⟨⟨v.off, n, k, l, s, t, u⟩, by simp [view3, h, hs, Res.get], rfl, rfl, rfl,
      fun i j a => by simp [RV3.cell, View.cell, hs, dot]; omega⟩

/-- Tensors of another order are refused. -/
theorem C534_refuses (v : View) : (v.dims.length ≠ 1 → view1 v = .throw ∧ cview1 v = .throw) ∧
    (v.dims.length ≠ 2 → view2 v = .throw ∧ cview2 v = .throw) ∧ (v.dims.length ≠ 3 → view3 v = .throw ∧ cview3 v = .throw) := by
  refine ⟨fun h => ?_, fun h => ?_, fun h => ?_⟩ <;> simp [view1, cview1, view2, cview2, view3, cview3, h]

example : view2 ⟨3, [2, 4], [1, 2]⟩ = .ok ⟨3, 2, 4, 1, 2⟩ ∧ view2 ⟨3, [2, 4, 1], [1, 2, 1]⟩ = .throw := by decide

/-! ## C535 -/

/-- The memory of `complex<float>`s seen as `float`s. -/
def floats (m : Buf (Cx α)) : Buf α := fun c => (m (c / 2)).map fun z => if c % 2 = 0 then z.re else z.im

theorem floats_even (m : Buf (Cx α)) (c : Nat) : floats m (2 * c) = (m c).map Cx.re := by
  simp [floats]

theorem floats_odd (m : Buf (Cx α)) (c : Nat) : floats m (2 * c + 1) = (m c).map Cx.im := by
  have : (2 * c + 1) / 2 = c := by omega
  have h2 : (2 * c + 1) % 2 ≠ 0 := by omega
  simp [floats, this]

theorem getC_floats (m : Buf (Cx α)) (c p q : Nat) (z : Cx α) (h : m c = some z) (hp : p = 2 * c) (hq : q = 2 * c + 1) :
    getC p q (floats m) = .ok z := by
  subst hp hq
  simp [getC, Buf.read, floats_even, floats_odd, h]

/-- The complex views of order one, two and three read the entries of the tensor from its floats. -/
theorem C535_views (v : View) (hw : v.WF) (m : Buf (Cx α)) (X : List Nat → Cx α) (hX : Shows m v X) :
    (∀ n, v.dims = [n] → ∃ r, cview1 v = .ok r ∧ r.n0 = n ∧ ∀ i, i < n → r.get i (floats m) = .ok (X [i])) ∧
    (∀ n k, v.dims = [n, k] → ∃ r, cview2 v = .ok r ∧ r.n0 = n ∧ r.n1 = k ∧ ∀ i j, i < n → j < k →
      r.get i j (floats m) = .ok (X [i, j])) ∧
    (∀ n k l, v.dims = [n, k, l] → ∃ r, cview3 v = .ok r ∧ r.n0 = n ∧ r.n1 = k ∧ r.n2 = l ∧ ∀ i j a, i < n → j < k → a < l →
      r.get i j a (floats m) = .ok (X [i, j, a])) := by
  have hw : v.strides.length = v.dims.length := hw
  refine ⟨fun n h => ?_, fun n k h => ?_, fun n k l h => ?_⟩ <;> rw [h] at hw
  · obtain ⟨s, hs⟩ := List.length_eq_one_iff.1 hw
    refine ⟨⟨2 * v.off, 2 * v.off + 1, n, 2 * s⟩, by simp [cview1, h, hs, Res.get], rfl, fun i hi => ?_⟩
    refine getC_floats m (v.cell [i]) _ _ _ (hX [i] (by rw [h]; simp [InRange, hi])) ?_ ?_ <;>
      simp [CV1.off, View.cell, hs, dot] <;> ring
  · obtain ⟨s, t, hs⟩ := List.length_eq_two.1 hw
    refine ⟨⟨2 * v.off, 2 * v.off + 1, n, k, 2 * s, 2 * t⟩, by simp [cview2, h, hs, Res.get], rfl, rfl, fun i j hi hj => ?_⟩
    refine getC_floats m (v.cell [i, j]) _ _ _ (hX [i, j] (by rw [h]; simp [InRange, hi, hj])) ?_ ?_ <;>
      simp [CV2.off, View.cell, hs, dot] <;> ring
  · obtain ⟨s, t, u, hs⟩ := List.length_eq_three.1 hw
    refine ⟨⟨2 * v.off, 2 * v.off + 1, n, k, l, 2 * s, 2 * t, 2 * u⟩, by simp [cview3, h, hs, Res.get], rfl, rfl, rfl,
      fun i j a hi hj ha => ?_⟩
    refine getC_floats m (v.cell [i, j, a]) _ _ _ (hX [i, j, a] (by rw [h]; simp [InRange, hi, hj, ha])) ?_ ?_ <;>
      simp [CV3.off, View.cell, hs, dot] <;> ring

example : cview2 ⟨1, [2, 2], [1, 2]⟩ = .ok ⟨2, 3, 2, 2, 2, 4⟩ ∧
    (⟨2, 3, 2, 2, 2, 4⟩ : CV2).get 1 0 (floats (Buf.ofList [⟨0, 0⟩, ⟨1, 2⟩, ⟨3, 4⟩, ⟨5, 6⟩, (⟨7, 8⟩ : Cx Int)])) = .ok ⟨3, 4⟩ := by decide

/-! ## C536 -/

/-- The flat view of a tensor without gaps has as many entries as the tensor and shows the entries of the tensor, each once; if the
tensor is row-major, in row-major order.  Tensors with gaps are refused. -/
theorem C536_flat (v : View) (hw : v.WF) (hz : ∀ x ∈ v.dims.zip v.strides, x.2 = 0 → x.1 = 1) (m : Buf α) (X : List Nat → α)
    (hX : Shows m v X) : (isContiguous v.strides v.dims = .ok true → ∃ r, flatView v = .ok r ∧ r.n0 = v.dims.prod ∧
      ∃ l : List α, l.Perm (entries v.dims X) ∧ l.length = r.n0 ∧ (∀ i, i < r.n0 → m (r.cell i) = l[i]?) ∧
        (isRegular v.strides v.dims = .ok true → l = entries v.dims X)) ∧
    (isContiguous v.strides v.dims = .ok false → flatView v = .throw) := by
  refine ⟨fun hc => ?_, fun hc => by simp [flatView, hc]⟩
  refine ⟨⟨v.off, v.dims.prod, 1⟩, by simp [flatView, hc, asize_eq], rfl, ?_⟩
  obtain ⟨-, hp⟩ := contiguous_cells _ _ hc hz
  have hcells : ((List.range v.dims.prod).map (v.off + ·)).Perm v.cells := by
    rw [cells_eq_axCells v hw]
    exact (hp.symm).map _
  have hsome : ∀ i, i < v.dims.prod → (m (v.off + i)).isSome := by
    intro i hi
    have : v.off + i ∈ v.cells := hcells.mem_iff.1 (List.mem_map.2 ⟨i, List.mem_range.2 hi, rfl⟩)
    rw [View.cells, List.mem_map] at this
    obtain ⟨ix, hix, e⟩ := this
    rw [← e]
    have := hX ix (mem_allIndices.1 hix)
    rw [View.val] at this
    rw [this]; rfl
  have hl : ∀ k, k ≤ v.dims.prod → (((List.range k).map (v.off + ·)).filterMap m).length = k ∧
      ∀ i, i < k → m (v.off + i) = (((List.range k).map (v.off + ·)).filterMap m)[i]? := by
    intro k
    induction k with
    | zero => intro _; exact ⟨rfl, fun i hi => by omega⟩
    | succ k ih =>
      intro hk
      obtain ⟨h1, h2⟩ := ih (by omega)
      obtain ⟨a, ha⟩ := Option.isSome_iff_exists.1 (hsome k (by omega))
      have e : ((List.range (k + 1)).map (v.off + ·)).filterMap m = ((List.range k).map (v.off + ·)).filterMap m ++ [a] := by
        rw [List.range_succ, List.map_append, List.filterMap_append]; simp [ha]
      rw [e]
      refine ⟨by rw [List.length_append, h1]; rfl, fun i hi => ?_⟩
      by_cases hik : i < k
      · rw [h2 i hik, List.getElem?_append_left (by omega)]
      · have : i = k := by omega
        subst this
        rw [List.getElem?_append_right (by omega), h1, ha]; simp
  obtain ⟨h1, h2⟩ := hl _ (Nat.le_refl _)
  refine ⟨((List.range v.dims.prod).map (v.off + ·)).filterMap m, ?_, h1, fun i hi => ?_, fun hr => ?_⟩
  · rw [entries, ← filterMap_cells v m X hX]
    exact hcells.filterMap m
  · rw [show (⟨v.off, v.dims.prod, 1⟩ : RV1).cell i = v.off + i by simp [RV1.cell]]
    exact h2 i hi
  · rw [entries, ← filterMap_cells v m X hX, View.cells]
    congr 1
    rw [← map_position_allIndices, List.map_map]
    apply List.map_congr_left
    intro ix hix
    exact (regular_cells v hr ix (mem_allIndices.1 hix)).symm

example : flatView ⟨1, [2, 3], [1, 2]⟩ = .ok ⟨1, 6, 1⟩ ∧ flatView ⟨1, [2, 2], [3, 1]⟩ = .throw ∧
    (∀ x ∈ ([2, 3] : List Nat).zip [1, 2], x.2 = 0 → x.1 = 1) := by decide

end TV
end Cnine
