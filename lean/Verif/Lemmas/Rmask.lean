import Verif.Model.Rmask
import Verif.Spec.Rmask
import Verif.Lemmas.OMap
import Verif.Lemmas.CViewFuse
import Verif.Lemmas.BlockSparse

/-! Masks filled by pushes, and the aggregation of rows. -/

namespace Cnine

open MaskSpec

variable {α : Type}

namespace RMCore

/-- The mask after the pushes `l`. -/
def run (l : List (Int × Int × α)) : RMCore α := l.foldl (fun y e => y.push e.1 e.2.1 e.2.2) empty

theorem run_snoc (l : List (Int × Int × α)) (e : Int × Int × α) : run (l ++ [e]) = (run l).push e.1 e.2.1 e.2.2 := by
  simp [run, List.foldl_append]

theorem least_snoc {n : Int} {l : List Int} (h : LeastAbove n l) {a : Int} (ha : 0 ≤ a) :
    LeastAbove (if a ≥ n then a + 1 else n) (l ++ [a]) := by
  obtain ⟨h0, h1, h2⟩ := h
  split
  · rename_i c
    refine ⟨by omega, ?_, Or.inr (by simp)⟩
    intro b hb
    rcases List.mem_append.mp hb with hb | hb
    · have := h1 b hb; omega
    · rw [List.mem_singleton] at hb; omega
  · rename_i c
    refine ⟨h0, ?_, ?_⟩
    · intro b hb
      rcases List.mem_append.mp hb with hb | hb
      · exact h1 b hb
      · rw [List.mem_singleton] at hb; omega
    · rcases h2 with h2 | h2
      · omega
      · exact Or.inr (List.mem_append_left _ h2)

theorem rowOf_snoc (l : List (Int × Int × α)) (e : Int × Int × α) (i : Int) :
    rowOf (l ++ [e]) i = if e.1 = i then rowOf l i ++ [e.2] else rowOf l i := by
  unfold rowOf
  rw [List.filter_append, List.map_append]
  by_cases c : e.1 = i <;> simp [c]

theorem run_lists (l : List (Int × Int × α)) : OMap.Sorted (run l).lists ∧
    ∀ i, OMap.find? i (run l).lists = if (rowOf l i).isEmpty then none else some (rowOf l i) := by
  induction l using List.reverseRecOn with
  | nil => exact ⟨OMap.sorted_nil, fun i => rfl⟩
  | append_singleton l e ih =>
    rw [run_snoc]
    refine ⟨ih.1.set _ _, ?_⟩
    intro i
    rw [rowOf_snoc]
    unfold push
    dsimp only
    have hd : ((OMap.find? e.1 (run l).lists).getD []) = rowOf l e.1 := by
      rw [ih.2]
      split
      · rename_i c
        rw [List.isEmpty_iff] at c
        rw [c]; rfl
      · rfl
    rw [OMap.find?_set, hd]
    by_cases c : i = e.1
    · subst c
      rw [if_pos rfl, if_pos rfl]
      simp
    · rw [if_neg c, if_neg (fun h => c h.symm : ¬ e.1 = i)]
      exact ih.2 i

theorem run_getD (l : List (Int × Int × α)) (i : Int) : (OMap.find? i (run l).lists).getD [] = rowOf l i := by
  rw [(run_lists l).2]
  split
  · rename_i c
    rw [List.isEmpty_iff] at c
    rw [c]; rfl
  · rfl

theorem run_sizes (l : List (Int × Int × α)) (hl : ∀ e ∈ l, 0 ≤ e.1 ∧ 0 ≤ e.2.1) :
    LeastAbove (run l).N0 (l.map fun e => e.1) ∧ LeastAbove (run l).M0 (l.map fun e => e.2.1) := by
  induction l using List.reverseRecOn with
  | nil => exact ⟨⟨le_rfl, by simp, Or.inl rfl⟩, ⟨le_rfl, by simp, Or.inl rfl⟩⟩
  | append_singleton l e ih =>
    rw [run_snoc, List.map_append, List.map_append]
    obtain ⟨h1, h2⟩ := ih fun e he => hl e (List.mem_append_left _ he)
    obtain ⟨p1, p2⟩ := hl e (by simp)
    exact ⟨least_snoc h1 p1, least_snoc h2 p2⟩

/-- The entries of the lists, list by list. -/
def flat (lists : OMap Int (List (Int × α))) : List (Int × Int × α) := lists.flatMap fun p => p.2.map fun q => (p.1, q.1, q.2)

theorem flat_filter {lists : OMap Int (List (Int × α))} (h : OMap.Sorted lists) (i : Int) :
    (flat lists).filter (fun e => decide (e.1 = i)) = ((OMap.find? i lists).getD []).map fun q => (i, q.1, q.2) := by
  induction lists with
  | nil => rfl
  | cons p lists ih =>
    obtain ⟨k, v⟩ := p
    obtain ⟨h1, h2⟩ := OMap.sorted_cons.mp h
    have e : flat ((k, v) :: lists) = (v.map fun q => (k, q.1, q.2)) ++ flat lists := by simp [flat]
    rw [e, List.filter_append, ih (by first | exact h2 | exact h1)]
    rw [show OMap.find? i ((k, v) :: lists) = if i = k then some v else OMap.find? i lists from rfl]
    by_cases c : i = k
    · subst c
      rw [if_pos rfl, OMap.find?_none_of_lt (by first | exact h1 | exact h2)]
      have : (v.map fun q => (i, q.1, q.2)).filter (fun e => decide (e.1 = i)) = v.map fun q => (i, q.1, q.2) := by
        rw [List.filter_eq_self]
        intro a ha
        obtain ⟨q, _, rfl⟩ := List.mem_map.mp ha
        simp
      rw [this]
      simp
    · rw [if_neg c]
      have : (v.map fun q => (k, q.1, q.2)).filter (fun e => decide (e.1 = i)) = [] := by
        rw [List.filter_eq_nil_iff]
        intro a ha
        obtain ⟨q, _, rfl⟩ := List.mem_map.mp ha
        simpa using fun h => c h.symm
      rw [this, List.nil_append]

theorem filter_run (l : List (Int × Int × α)) (i : Int) :
    (flat (run l).lists).filter (fun e => decide (e.1 = i)) = l.filter fun e => decide (e.1 = i) := by
  rw [flat_filter (run_lists l).1, run_getD]
  unfold rowOf
  rw [List.map_map]
  conv_rhs => rw [← List.map_id (l.filter fun e => decide (e.1 = i))]
  apply List.map_congr_left
  intro e he
  have := (List.mem_filter.mp he).2
  rw [decide_eq_true_eq] at this
  rw [← this]; rfl

theorem mem_flat_run (l : List (Int × Int × α)) (e : Int × Int × α) : e ∈ flat (run l).lists ↔ e ∈ l := by
  have h := filter_run l e.1
  have h1 : e ∈ (flat (run l).lists).filter (fun a => decide (a.1 = e.1)) ↔ e ∈ flat (run l).lists := by simp
  have h2 : e ∈ l.filter (fun a => decide (a.1 = e.1)) ↔ e ∈ l := by simp
  rw [← h1, h, h2]

/-- Rows in increasing order. -/
theorem flat_sorted {lists : OMap Int (List (Int × α))} (h : OMap.Sorted lists) : (flat lists).Pairwise fun a b => a.1 ≤ b.1 := by
  unfold flat
  rw [List.pairwise_flatMap]
  constructor
  · intro p _
    rw [List.pairwise_map]
    exact List.pairwise_of_forall fun _ _ => le_rfl
  · unfold OMap.Sorted at h
    rw [List.pairwise_map] at h
    refine h.imp ?_
    intro p q hpq a ha b hb
    obtain ⟨a', _, rfl⟩ := List.mem_map.mp ha
    obtain ⟨b', _, rfl⟩ := List.mem_map.mp hb
    exact le_of_lt hpq

/-- Exchange of rows and columns. -/
def swap (e : Int × Int × α) : Int × Int × α := (e.2.1, e.1, e.2.2)

theorem inverted_eq (x : RMCore α) : x.inverted = run ((flat x.lists).map swap) := by
  unfold inverted run flat
  rw [List.foldl_map]
  generalize (empty : RMCore α) = y
  induction x.lists generalizing y with
  | nil => rfl
  | cons p l ih =>
    rw [List.foldl_cons, ih, List.flatMap_cons, List.foldl_append, List.foldl_map]
    rfl

theorem valuesAt_eq (l : List (Int × Int × α)) (i j : Int) :
    valuesAt l i j = ((l.filter fun e => decide (e.1 = i)).filter fun e => decide (e.2.1 = j)).map fun e => e.2.2 := by
  unfold valuesAt
  rw [List.filter_filter]
  congr 1
  apply List.filter_congr
  intro e _
  by_cases c : e.1 = i <;> by_cases d : e.2.1 = j <;> simp [c, d]

theorem valuesAt_flat (l : List (Int × Int × α)) (i j : Int) : valuesAt (flat (run l).lists) i j = valuesAt l i j := by
  rw [valuesAt_eq, filter_run, ← valuesAt_eq]

theorem row_values (l : List (Int × Int × α)) (i j : Int) :
    ((rowOf l i).filter fun q => decide (q.1 = j)).map Prod.snd = valuesAt l i j := by
  rw [valuesAt_eq]
  unfold rowOf
  rw [List.filter_map, List.map_map]
  rfl

theorem valuesAt_swap (l : List (Int × Int × α)) (i j : Int) : valuesAt (l.map swap) j i = valuesAt l i j := by
  unfold valuesAt
  rw [List.filter_map, List.map_map]
  congr 1
  apply List.filter_congr
  intro e _
  by_cases c : e.1 = i <;> by_cases d : e.2.1 = j <;> simp [swap, c, d]

end RMCore

namespace RMask

/-- One use of a mask. -/
def use (x : RMask α) : Use α → RMask α
  | .push i j v => x.push i j v
  | .inv => x.inv.1

/-- The mask after the uses `l`. -/
def after (l : List (Use α)) : RMask α := l.foldl use empty

theorem pushes_append (l l' : List (Use α)) : pushes (l ++ l') = pushes l ++ pushes l' := by
  induction l with
  | nil => rfl
  | cons u l ih => cases u <;> simp [pushes, ih]

theorem inv_core (x : RMask α) : x.inv.1.core = x.core := by
  unfold inv
  split <;> rfl

theorem after_spec (l : List (Use α)) : (after l).core = RMCore.run (pushes l) ∧
    ∀ y, (after l).inverse = some y → (after l).invCurrent = true → y = (after l).core.inverted := by
  induction l using List.reverseRecOn with
  | nil => exact ⟨rfl, fun y h => by cases h⟩
  | append_singleton l u ih =>
    have e : after (l ++ [u]) = (after l).use u := by simp [after, List.foldl_append]
    rw [e, pushes_append]
    cases u with
    | push i j v =>
      refine ⟨?_, fun y _ h => by cases h⟩
      show (after l).core.push i j v = RMCore.run (pushes l ++ [(i, j, v)])
      rw [RMCore.run_snoc, ih.1]
    | inv =>
      refine ⟨?_, ?_⟩
      · show (after l).inv.1.core = RMCore.run (pushes l ++ [])
        rw [inv_core, List.append_nil, ih.1]
      · show ∀ y, (after l).inv.1.inverse = some y → (after l).inv.1.invCurrent = true → y = (after l).inv.1.core.inverted
        rw [inv_core]
        unfold inv
        split
        · exact ih.2
        · intro y h _
          exact (Option.some.inj h).symm

theorem inv_eq (l : List (Use α)) : (after l).inv.2 = (RMCore.run (pushes l)).inverted := by
  obtain ⟨h1, h2⟩ := after_spec l
  unfold inv
  split
  · rename_i y e1 e2
    rw [← h1]
    exact h2 y e1 e2
  · rw [h1]

end RMask

/-! ## Aggregation -/

theorem CV2.slice0Z_ok (v : CV2) {i : Int} (h : 0 ≤ i) : v.slice0Z i = .ok (v.slice0 i.toNat) := by
  obtain ⟨n, rfl⟩ := Int.eq_ofNat_of_zero_le h
  unfold CV2.slice0Z CV2.slice0
  have e1 : ((v.arr : Int) + (n : Int) * v.s0) = ((v.arr + n * v.s0 : Nat) : Int) := by push_cast; ring
  have e2 : ((v.arrc : Int) + (n : Int) * v.s0) = ((v.arrc + n * v.s0 : Nat) : Int) := by push_cast; ring
  rw [e1, e2, if_neg (by omega)]
  rfl

theorem Cx.scale_right [CommMonoid α] (a : Cx α) (c : α) : (⟨a.re * c, a.im * c⟩ : Cx α) = Cx.scale c a := by
  unfold Cx.scale
  rw [mul_comm, mul_comm a.im]

/-- One row of `x`, weighted, is added to one row of `r`. -/
theorem addS_ok [CommSemiring α] (r x : CV2) (hs : r.Sep) (ha : ∀ c, r.Cov c → ¬ x.Cov c) (h1 : x.n1 = r.n1) (m : Buf α)
    (R X : Nat → Nat → Cx α) (hR : r.Has m R) (hX : x.Has m X) {i j : Nat} (hi : i < r.n0) (hj : j < x.n0) (v : α) :
    ∃ m', (r.slice0 i).addS (x.slice0 j) v m = .ok m' ∧
      r.Has m' (fun a k => if a = i then R a k + Cx.scale v (X j k) else R a k) ∧ ∀ c, ¬ r.Cov c → m' c = m c := by
  have o : ∀ (w : CV2) (i k : Nat), (w.slice0 i).arr + (w.slice0 i).off k = w.arr + w.off i k ∧
      (w.slice0 i).arrc + (w.slice0 i).off k = w.arrc + w.off i k := by
    intro w i k
    simp only [CV2.slice0, CV1.off, CV2.off]
    constructor <;> ring
  have oo : ∀ k k', (r.slice0 i).off k = (r.slice0 i).off k' → r.off i k = r.off i k' := by
    intro k k' e
    have e1 := (o r i k).1
    have e2 := (o r i k').1
    omega
  have hsl : (r.slice0 i).Sep := by
    intro k hk k' hk'
    refine ⟨fun e => ((hs i hi k hk i hi k' hk').1 (oo _ _ e)).2, ?_⟩
    rw [(o r i k).1, (o r i k').2]
    exact (hs i hi k hk i hi k' hk').2
  have cr : ∀ k, k < r.n1 → r.Cov (r.arr + r.off i k) ∧ r.Cov (r.arrc + r.off i k) :=
    fun k hk => ⟨⟨i, hi, k, hk, Or.inl rfl⟩, ⟨i, hi, k, hk, Or.inr rfl⟩⟩
  have cx : ∀ k, k < x.n1 → x.Cov (x.arr + x.off j k) ∧ x.Cov (x.arrc + x.off j k) :=
    fun k hk => ⟨⟨j, hj, k, hk, Or.inl rfl⟩, ⟨j, hj, k, hk, Or.inr rfl⟩⟩
  have hm : (r.slice0 i).Match (x.slice0 j) := by
    intro k hk k' hk'
    rw [(o r i k).1, (o r i k).2, (o x j k').1, (o x j k').2]
    obtain ⟨c1, c2⟩ := cr k hk
    obtain ⟨d1, d2⟩ := cx k' hk'
    exact ⟨fun e => absurd (e ▸ d1) (ha _ c1), fun e => absurd (e ▸ d2) (ha _ c2), fun e => ha _ c1 (e ▸ d2), fun e => ha _ c2 (e ▸ d1)⟩
  have hRs : (r.slice0 i).Has m (R i) := by
    intro k hk
    rw [(o r i k).1, (o r i k).2]
    exact hR i hi k hk
  have hXs : (x.slice0 j).Has m (X j) := by
    intro k hk
    rw [(o x j k).1, (o x j k).2]
    exact hX j hj k hk
  obtain ⟨m', e, g1, g2⟩ := CV1.map_run (r.slice0 i) (x.slice0 j) hsl hm h1 m (R i) (X j) hRs hXs (fun k => R i k + Cx.scale v (X j k))
    (fun k a m => (r.slice0 i).inc k ⟨a.re * v, a.im * v⟩ m) (by
      intro k hk m1 e1 e2
      rw [Cx.scale_right]
      exact CV1.inc_ok hsl hRs hk _ e1 e2)
  refine ⟨m', ?_, ?_, ?_⟩
  · unfold CV1.addS
    rw [show decide ((r.slice0 i).n0 = (x.slice0 j).n0) = true from decide_eq_true h1.symm, Res.assrt_true, Res.ok_bind]
    exact e
  · intro a hka k hk
    dsimp only
    by_cases c : a = i
    · subst c
      rw [if_pos rfl, ← (o r a k).1, ← (o r a k).2]
      exact g1 k hk
    · rw [if_neg c]
      have n1 : ¬ (r.slice0 i).Cov (r.arr + r.off a k) := by
        rintro ⟨k', hk', e | e⟩
        · rw [(o r i k').1] at e
          exact c ((hs a hka k hk i hi k' hk').1 (Nat.add_left_cancel e)).1
        · rw [(o r i k').2] at e
          exact (hs a hka k hk i hi k' hk').2 e
      have n2 : ¬ (r.slice0 i).Cov (r.arrc + r.off a k) := by
        rintro ⟨k', hk', e | e⟩
        · rw [(o r i k').1] at e
          exact (hs i hi k' hk' a hka k hk).2 e.symm
        · rw [(o r i k').2] at e
          exact c ((hs a hka k hk i hi k' hk').1 (Nat.add_left_cancel e)).1
      rw [g2 _ n1, g2 _ n2]
      exact hR a hka k hk
  · intro c hc
    apply g2
    rintro ⟨k, hk, e⟩
    rw [(o r i k).1, (o r i k).2] at e
    exact hc ⟨i, hi, k, hk, e⟩

/-- What is added for one entry of the mask. -/
def aggStep [Add α] [Mul α] (r x : CV2) (m : Buf α) (e : Int × Int × α) : Res (Buf α) :=
  (r.slice0 e.1.toNat).addS (x.slice0 e.2.1.toNat) e.2.2 m

theorem aggregate2_eq [Add α] [Mul α] (r x : CV2) (mask : RMCore α) (m : Buf α) (h1 : ∀ p ∈ mask.lists, 0 ≤ p.1)
    (h2 : ∀ e ∈ RMCore.flat mask.lists, 0 ≤ e.2.1) :
    aggregate2 r x mask m = Res.forM (RMCore.flat mask.lists) m (aggStep r x) := by
  unfold aggregate2 RMCore.flat
  rw [forM_flatMap]
  apply forM_congr
  intro p hp m
  unfold aggRow
  rw [CV2.slice0Z_ok r (h1 p hp), Res.ok_bind, forM_map]
  apply forM_congr
  intro q hq m
  have := h2 (p.1, q.1, q.2) (List.mem_flatMap.mpr ⟨p, hp, List.mem_map.mpr ⟨q, hq, rfl⟩⟩)
  rw [CV2.slice0Z_ok x this, Res.ok_bind]
  rfl

theorem agg_run [CommSemiring α] (r x : CV2) (hs : r.Sep) (ha : ∀ c, r.Cov c → ¬ x.Cov c) (h1 : x.n1 = r.n1)
    (X : Nat → Nat → Cx α) : ∀ (l : List (Int × Int × α)) (m : Buf α) (R : Nat → Nat → Cx α), r.Has m R → x.Has m X →
    (∀ e ∈ l, 0 ≤ e.1 ∧ e.1 < r.n0 ∧ 0 ≤ e.2.1 ∧ e.2.1 < x.n0) →
    ∃ m', Res.forM l m (aggStep r x) = .ok m' ∧
      r.Has m' (fun i k => R i k + (l.map fun e => if e.1 = (i : Int) then Cx.scale e.2.2 (X e.2.1.toNat k) else 0).sum) ∧
      ∀ c, ¬ r.Cov c → m' c = m c
  | [], m, R, hR, _, _ => ⟨m, rfl, hR.congr (fun i _ k _ => by simp), fun _ _ => rfl⟩
  | e :: l, m, R, hR, hX, hl => by
    obtain ⟨p1, p2, p3, p4⟩ := hl e (by simp)
    obtain ⟨m1, e1, g1, g2⟩ := addS_ok r x hs ha h1 m R X hR hX (i := e.1.toNat) (j := e.2.1.toNat) (by omega) (by omega) e.2.2
    have hX1 : x.Has m1 X := by
      intro a hka k hk
      rw [g2 _ (fun c => ha _ c ⟨a, hka, k, hk, Or.inl rfl⟩), g2 _ (fun c => ha _ c ⟨a, hka, k, hk, Or.inr rfl⟩)]
      exact hX a hka k hk
    obtain ⟨m2, e2, f1, f2⟩ := agg_run r x hs ha h1 X l m1 _ g1 hX1 fun a h => hl a (List.mem_cons_of_mem _ h)
    refine ⟨m2, ?_, ?_, ?_⟩
    · rw [Res.forM_cons]
      rw [show aggStep r x m e = .ok m1 from e1, Res.ok_bind, e2]
    · refine f1.congr ?_
      intro i hi k hk
      rw [List.map_cons, List.sum_cons]
      by_cases c : e.1 = (i : Int)
      · rw [if_pos (by omega), if_pos c, add_assoc]
      · rw [if_neg (by omega), if_neg c, zero_add]
    · intro c hc
      rw [f2 c hc, g2 c hc]

theorem sum_if_filter {β M : Type} [AddCommMonoid M] (p : β → Bool) (f : β → M) (l : List β) :
    (l.map fun e => if p e = true then f e else 0).sum = ((l.filter p).map f).sum := by
  induction l with
  | nil => rfl
  | cons e l ih =>
    rw [List.map_cons, List.sum_cons, ih]
    by_cases c : p e = true
    · rw [if_pos c, List.filter_cons_of_pos c, List.map_cons, List.sum_cons]
    · rw [if_neg c, List.filter_cons_of_neg c, zero_add]

theorem Cx.scale_sum [CommSemiring α] (l : List α) (a : Cx α) : (l.map fun v => Cx.scale v a).sum = Cx.scale l.sum a := by
  induction l with
  | nil => simp [Cx.scale, Cx.zero_def]
  | cons v l ih =>
    rw [List.map_cons, List.sum_cons, ih, List.sum_cons]
    simp [Cx.scale, Cx.add_def, add_mul]

/-- The sum over the entries of the mask is the sum over the columns of the matrix. -/
theorem sum_mask [CommSemiring α] (l : List (Int × Int × α)) (n i : Nat) (Y : Nat → Cx α)
    (hl : ∀ e ∈ l, 0 ≤ e.2.1 ∧ e.2.1 < n) :
    ((RMCore.flat (RMCore.run l).lists).map fun e => if e.1 = (i : Int) then Cx.scale e.2.2 (Y e.2.1.toNat) else 0).sum =
      ∑ j ∈ Finset.range n, Cx.scale (entry l i j) (Y j) := by
  have e1 := sum_if_filter (fun e : Int × Int × α => decide (e.1 = (i : Int))) (fun e => Cx.scale e.2.2 (Y e.2.1.toNat))
  have e2 : ∀ l' : List (Int × Int × α), (l'.map fun e => if e.1 = (i : Int) then Cx.scale e.2.2 (Y e.2.1.toNat) else 0).sum =
      ((l'.filter fun e => decide (e.1 = (i : Int))).map fun e => Cx.scale e.2.2 (Y e.2.1.toNat)).sum := by
    intro l'
    rw [← e1 l']
    simp only [decide_eq_true_eq]
  rw [e2, RMCore.filter_run, ← e2, blocks_row (i : Int) n (fun j v => Cx.scale v (Y j)) l (fun e he _ => hl e he)]
  apply Finset.sum_congr rfl
  intro j _
  unfold entry valuesAt
  rw [← Cx.scale_sum, List.map_map]
  have e3 := sum_if_filter (fun e : Int × Int × α => decide (e.1 = (i : Int) ∧ e.2.1 = (j : Int))) (fun e => Cx.scale e.2.2 (Y j)) l
  rw [show (((fun v => Cx.scale v (Y j)) ∘ fun e : Int × Int × α => e.2.2)) = fun e => Cx.scale e.2.2 (Y j) from rfl, ← e3]
  simp only [decide_eq_true_eq]

/-! ## The last two of three axes -/

open RV2

theorem CV3.fuse12_off (v : CV3) (h : v.s1 = v.n2 * v.s2) (i j k : Nat) : v.fuse12.off i (v.n2 * j + k) = v.off i j k := by
  simp only [CV2.off, CV3.off, CV3.fuse12, h]; ring

theorem CV3.fuse12_off' (v : CV3) (h : v.s1 = v.n2 * v.s2) (i a : Nat) : v.fuse12.off i a = v.off i (a / v.n2) (a % v.n2) := by
  rw [← v.fuse12_off h, Nat.div_add_mod]

theorem CV3.fuse12_has {v : CV3} (h : v.s1 = v.n2 * v.s2) {m : Buf α} {X : Nat → Nat → Nat → Cx α} (hX : v.Has m X) :
    v.fuse12.Has m (fun i a => X i (a / v.n2) (a % v.n2)) := by
  intro i hi a ha
  have ha : a < v.n1 * v.n2 := ha
  rw [v.fuse12_off' h]
  exact hX i hi _ (div_lt_of_flat ha) _ (mod_lt_of_flat ha)

theorem CV3.has_fuse12 {v : CV3} (h : v.s1 = v.n2 * v.s2) {m : Buf α} {Y : Nat → Nat → Cx α} (hY : v.fuse12.Has m Y) :
    v.Has m (fun i j k => Y i (v.n2 * j + k)) := by
  intro i hi j hj k hk
  have := hY i hi (v.n2 * j + k) (flat_lt hj hk)
  rwa [v.fuse12_off h] at this

theorem CV3.fuse12_sep {v : CV3} (h : v.s1 = v.n2 * v.s2) (hs : v.Sep) : v.fuse12.Sep := by
  intro i hi a ha j hj b hb
  have ha : a < v.n1 * v.n2 := ha
  have hb : b < v.n1 * v.n2 := hb
  rw [v.fuse12_off' h, v.fuse12_off' h]
  have := hs i hi _ (div_lt_of_flat ha) _ (mod_lt_of_flat ha) j hj _ (div_lt_of_flat hb) _ (mod_lt_of_flat hb)
  refine ⟨fun e => ?_, this.2⟩
  obtain ⟨e1, e2, e3⟩ := this.1 e
  refine ⟨e1, ?_⟩
  rw [← Nat.div_add_mod a v.n2, e2, e3, Nat.div_add_mod]

theorem CV3.fuse12_cov {v : CV3} (h : v.s1 = v.n2 * v.s2) (c : Nat) : v.fuse12.Cov c ↔ v.Cov c := by
  constructor
  · rintro ⟨i, hi, a, ha, e⟩
    have ha : a < v.n1 * v.n2 := ha
    rw [v.fuse12_off' h] at e
    exact ⟨i, hi, _, div_lt_of_flat ha, _, mod_lt_of_flat ha, e⟩
  · rintro ⟨i, hi, j, hj, k, hk, e⟩
    rw [← v.fuse12_off h] at e
    exact ⟨i, hi, _, flat_lt hj hk, e⟩

/-- A mask whose lists are those of the pushes `l`. -/
theorem aggregate2_run [CommSemiring α] (r x : CV2) (hs : r.Sep) (ha : ∀ c, r.Cov c → ¬ x.Cov c) (h1 : x.n1 = r.n1)
    (X : Nat → Nat → Cx α) (l : List (Int × Int × α)) (m : Buf α) (R : Nat → Nat → Cx α) (hR : r.Has m R) (hX : x.Has m X)
    (hl : ∀ e ∈ l, 0 ≤ e.1 ∧ e.1 < r.n0 ∧ 0 ≤ e.2.1 ∧ e.2.1 < x.n0) :
    ∃ m', aggregate2 r x (RMCore.run l) m = .ok m' ∧
      r.Has m' (fun i k => R i k + ∑ j ∈ Finset.range x.n0, Cx.scale (entry l i j) (X j k)) ∧
      ∀ c, ¬ r.Cov c → m' c = m c := by
  have hm : ∀ e ∈ RMCore.flat (RMCore.run l).lists, 0 ≤ e.1 ∧ e.1 < r.n0 ∧ 0 ≤ e.2.1 ∧ e.2.1 < x.n0 :=
    fun e he => hl e ((RMCore.mem_flat_run l e).1 he)
  have hp : ∀ p ∈ (RMCore.run l).lists, 0 ≤ p.1 := by
    intro p hp
    have h2 := (OMap.mem_iff (RMCore.run_lists l).1 (k := p.1) (v := p.2)).1 hp
    rw [(RMCore.run_lists l).2] at h2
    split at h2
    · cases h2
    · rename_i c
      obtain ⟨q, hq⟩ := List.exists_mem_of_ne_nil _ (fun h => c (List.isEmpty_iff.mpr h))
      obtain ⟨e, he, _⟩ := List.mem_map.mp hq
      obtain ⟨h3, h4⟩ := List.mem_filter.mp he
      rw [decide_eq_true_eq] at h4
      rw [← h4]
      exact (hl e h3).1
  rw [aggregate2_eq r x _ m hp (fun e he => (hm e he).2.2.1)]
  obtain ⟨m', e, g1, g2⟩ := agg_run r x hs ha h1 X _ m R hR hX hm
  refine ⟨m', e, g1.congr ?_, g2⟩
  intro i _ k _
  rw [sum_mask l x.n0 i (fun j => X j k) (fun e he => (hl e he).2.2)]

end Cnine
