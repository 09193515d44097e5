import Verif.Lemmas.Rmask

/-!
# Properties of the weighted masks (include/Rmask1.hpp) and of the aggregation of rows (tensor_views/Aggregator.hpp)
-/

namespace Cnine

open MaskSpec

variable {α : Type}

/-! ## C282: pushes -/

/-- **C282.** After any pushes with nonnegative indices the mask lists, for exactly the rows that were pushed and in increasing order of
the rows, what was pushed for the row in the order of the pushes; `N0` and `M0` are the least sizes containing all the indices. -/
theorem C282_push (l : List (Int × Int × α)) (hl : ∀ e ∈ l, 0 ≤ e.1 ∧ 0 ≤ e.2.1) :
    let x := l.foldl (fun (y : RMCore α) e => y.push e.1 e.2.1 e.2.2) RMCore.empty
    (x.lists.map Prod.fst).Pairwise (· < ·) ∧
      (∀ i row, (i, row) ∈ x.lists ↔ row ≠ [] ∧ row = rowOf l i) ∧
      LeastAbove x.N0 (l.map fun e => e.1) ∧ LeastAbove x.M0 (l.map fun e => e.2.1) := by
  intro x
  have hx : x = RMCore.run l := rfl
  rw [hx]
  obtain ⟨h1, h2⟩ := RMCore.run_lists l
  refine ⟨h1, ?_, RMCore.run_sizes l hl⟩
  intro i row
  rw [OMap.mem_iff h1, h2]
  constructor
  · intro h
    split at h
    · cases h
    · rename_i c
      cases h
      exact ⟨fun h => c (List.isEmpty_iff.mpr h), rfl⟩
  · rintro ⟨h3, h4⟩
    rw [if_neg (fun h => h3 (h4 ▸ List.isEmpty_iff.mp h)), h4]

example : ([(2, 0, 5), (0, 3, 7), (2, 1, 9), (2, 0, 1)] : List (Int × Int × Int)).foldl (fun (y : RMCore Int) e => y.push e.1 e.2.1 e.2.2)
    RMCore.empty = ⟨3, 4, [(0, [(3, 7)]), (2, [(0, 5), (1, 9), (0, 1)])]⟩ := rfl

/-! ## C283: the inverse -/

/-- **C283.** Whatever pushes and calls of `inv()` came before, `inv()` gives the transpose of the mask as pushed up to now: the weights it
lists for the pair `(j,i)` are those pushed for `(i,j)`, in the same order; each of its rows is ordered by the index; it has exactly the
rows that were pushed as columns; its sizes are exchanged.  The mask itself is what the pushes alone give. -/
theorem C283_inverse (l : List (Use α)) (hl : ∀ e ∈ pushes l, 0 ≤ e.1 ∧ 0 ≤ e.2.1) :
    let x := l.foldl (fun (y : RMask α) u => match u with | .push i j v => y.push i j v | .inv => y.inv.1) RMask.empty
    let y := x.inv.2
    (∀ i j, (((OMap.find? j y.lists).getD []).filter fun q => decide (q.1 = i)).map Prod.snd = valuesAt (pushes l) i j) ∧
      (y.lists.map Prod.fst).Pairwise (· < ·) ∧
      (∀ j row, (j, row) ∈ y.lists → row ≠ [] ∧ row.Pairwise fun a b => a.1 ≤ b.1) ∧
      LeastAbove y.N0 ((pushes l).map fun e => e.2.1) ∧ LeastAbove y.M0 ((pushes l).map fun e => e.1) ∧
      x.core = (pushes l).foldl (fun (y : RMCore α) e => y.push e.1 e.2.1 e.2.2) RMCore.empty ∧ x.inv.1.core = x.core := by
  intro x y
  have hx : x = RMask.after l := by
    show l.foldl _ RMask.empty = l.foldl RMask.use RMask.empty
    rfl
  have hy : y = RMCore.run ((RMCore.flat (RMCore.run (pushes l)).lists).map RMCore.swap) := by
    show x.inv.2 = _
    rw [hx, RMask.inv_eq, RMCore.inverted_eq]
  have hs : ∀ e ∈ (RMCore.flat (RMCore.run (pushes l)).lists).map RMCore.swap, 0 ≤ e.1 ∧ 0 ≤ e.2.1 := by
    intro e he
    obtain ⟨a, ha, rfl⟩ := List.mem_map.mp he
    exact (hl a ((RMCore.mem_flat_run _ a).1 ha)).symm
  have perm : ∀ (f : Int × Int × α → Int) (n : Int), LeastAbove n ((RMCore.flat (RMCore.run (pushes l)).lists).map f) →
      LeastAbove n ((pushes l).map f) := by
    intro f n h
    have hm : ∀ a, a ∈ (RMCore.flat (RMCore.run (pushes l)).lists).map f ↔ a ∈ (pushes l).map f := by
      intro a
      simp only [List.mem_map, RMCore.mem_flat_run]
    exact ⟨h.1, fun a ha => h.2.1 a ((hm a).2 ha), h.2.2.imp id fun h => (hm _).1 h⟩
  have hsz := RMCore.run_sizes _ hs
  rw [List.map_map, List.map_map] at hsz
  have hrow : ∀ j, (rowOf ((RMCore.flat (RMCore.run (pushes l)).lists).map RMCore.swap) j).Pairwise fun a b => a.1 ≤ b.1 := by
    intro j
    unfold rowOf
    rw [List.pairwise_map]
    apply List.Pairwise.filter
    rw [List.pairwise_map]
    exact RMCore.flat_sorted (RMCore.run_lists (pushes l)).1
  obtain ⟨g1, g2⟩ := RMCore.run_lists ((RMCore.flat (RMCore.run (pushes l)).lists).map RMCore.swap)
  rw [hy]
  refine ⟨?_, g1, ?_, perm _ _ hsz.1, perm _ _ hsz.2, ?_, ?_⟩
  · intro i j
    rw [RMCore.run_getD, RMCore.row_values, RMCore.valuesAt_swap, RMCore.valuesAt_flat]
  · intro j row h
    rw [OMap.mem_iff g1, g2] at h
    split at h
    · cases h
    · rename_i c
      cases h
      exact ⟨fun h => c (List.isEmpty_iff.mpr h), hrow j⟩
  · rw [hx]
    exact (RMask.after_spec l).1
  · exact RMask.inv_core x

/-- A push after `inv()` is seen by the next `inv()`. -/
example : let x := ([.push 2 0 5, .inv, .push 0 3 7, .push 2 3 1, .inv, .inv] : List (Use Int)).foldl (fun (y : RMask Int) u => match u with | .push i j v => y.push i j v | .inv => y.inv.1) RMask.empty
    (x.inv.2.N0, x.inv.2.M0, x.inv.2.lists) = (4, 3, [(0, [(2, 5)]), (3, [(0, 7), (2, 1)])]) := by decide

/-! ## C284, C285: the mask of a matrix -/

theorem rmaskMatrix_run [Zero α] [DecidableEq α] (M : RV2) (m : Buf α) (X : Nat → Nat → α) (hM : M.Has m X) :
    RMCore.matrix M m = .ok (RMCore.run ((List.range M.n0).flatMap fun i => (nonzeros X M.n1 i).map fun q => (Int.ofNat i, q.1, q.2))) := by
  have hread : ∀ i, i < M.n0 → ∀ j, j < M.n1 → m.read (M.cell i j) = .ok (X i j) := by
    intro i hi j hj
    have := hM i hi j hj
    simp [Buf.read, this]
  have hrow : ∀ i, i < M.n0 → ∀ n, n ≤ M.n1 → ∀ R : RMCore α,
      (loop n R fun j R => do
        let a ← m.read (M.cell i j)
        if a ≠ 0 then do
          let b ← m.read (M.cell i j)
          .ok (R.push i j b)
        else .ok R) = Res.ok ((nonzeros X n i).foldl (fun y q => y.push (Int.ofNat i) q.1 q.2) R) := by
    intro i hi n
    induction n with
    | zero => intro _ R; rfl
    | succ n ih =>
      intro hn R
      have ih := ih (by omega) R
      simp only [loop, List.range_succ, Res.forM_append] at ih ⊢
      rw [ih, Res.ok_bind, Res.forM_cons, hread i hi n (by omega)]
      simp only [Res.ok_bind, Res.forM_nil]
      unfold nonzeros
      rw [List.range_succ, List.filter_append, List.map_append, List.foldl_append]
      by_cases c : X i n = 0
      · simp [c]
      · simp [c]
  have hall : ∀ n, n ≤ M.n0 → ∀ R : RMCore α,
      (loop n R fun i R => loop M.n1 R fun j R => do
        let a ← m.read (M.cell i j)
        if a ≠ 0 then do
          let b ← m.read (M.cell i j)
          .ok (R.push i j b)
        else .ok R) = Res.ok (((List.range n).flatMap fun i => (nonzeros X M.n1 i).map fun q => (Int.ofNat i, q.1, q.2)).foldl
          (fun y e => y.push e.1 e.2.1 e.2.2) R) := by
    intro n
    induction n with
    | zero => intro _ R; rfl
    | succ n ih =>
      intro hn R
      have ih := ih (by omega) R
      have hr := hrow n (by omega) M.n1 le_rfl
      simp only [loop, List.range_succ, Res.forM_append] at ih hr ⊢
      rw [ih, Res.ok_bind, Res.forM_cons, hr]
      simp [List.flatMap_append, List.foldl_append, List.foldl_map]
  exact hall M.n0 le_rfl _

theorem rowOf_matrix (Z : Nat → List (Int × α)) (n i : Nat) :
    rowOf ((List.range n).flatMap fun i => (Z i).map fun q => (Int.ofNat i, q.1, q.2)) (i : Int) = if i < n then Z i else [] := by
  induction n with
  | zero => rfl
  | succ n ih =>
    unfold rowOf at ih ⊢
    rw [List.range_succ, List.flatMap_append, List.filter_append, List.map_append, ih]
    rw [List.flatMap_cons, List.flatMap_nil, List.append_nil]
    by_cases c : i = n
    · subst c
      rw [if_neg (by omega), if_pos (by omega), List.nil_append, List.filter_eq_self.mpr, List.map_map]
      · exact (List.map_congr_left fun q _ => rfl).trans (List.map_id _)
      · intro a ha
        obtain ⟨q, _, rfl⟩ := List.mem_map.mp ha
        simp
    · rw [List.filter_eq_nil_iff.mpr, List.map_nil, List.append_nil]
      · by_cases d : i < n
        · rw [if_pos d, if_pos (by omega)]
        · rw [if_neg d, if_neg (by omega)]
      · intro a ha
        obtain ⟨q, _, rfl⟩ := List.mem_map.mp ha
        simpa using fun h : (n : Int) = i => c (by omega)

/-- **C284.** The mask made from a matrix lists, for exactly the rows with a nonzero entry, the nonzero entries of the row in the order of
the columns. -/
theorem C284_matrix [Zero α] [DecidableEq α] (M : RV2) (m : Buf α) (X : Nat → Nat → α) (hM : M.Has m X) :
    ∃ x, RMCore.matrix M m = .ok x ∧ (x.lists.map Prod.fst).Pairwise (· < ·) ∧
      ∀ i row, (i, row) ∈ x.lists ↔ ∃ a : Nat, a < M.n0 ∧ i = a ∧ row ≠ [] ∧ row = nonzeros X M.n1 a := by
  refine ⟨_, rmaskMatrix_run M m X hM, (RMCore.run_lists _).1, ?_⟩
  intro i row
  have hr := rowOf_matrix (fun i => nonzeros X M.n1 i) M.n0
  obtain ⟨h1, h2⟩ := RMCore.run_lists ((List.range M.n0).flatMap fun i => (nonzeros X M.n1 i).map fun q => (Int.ofNat i, q.1, q.2))
  rw [OMap.mem_iff h1, h2]
  constructor
  · intro h
    split at h
    · cases h
    · rename_i c
      cases h
      have hne := fun h => c (List.isEmpty_iff.mpr h)
      obtain ⟨q, hq⟩ := List.exists_mem_of_ne_nil _ hne
      obtain ⟨e, he, _⟩ := List.mem_map.mp hq
      obtain ⟨h3, h4⟩ := List.mem_filter.mp he
      rw [decide_eq_true_eq] at h4
      obtain ⟨a, ha, hb⟩ := List.mem_flatMap.mp h3
      obtain ⟨q', _, rfl⟩ := List.mem_map.mp hb
      have ha := List.mem_range.mp ha
      have h4 : i = (a : Int) := h4.symm
      subst h4
      refine ⟨a, ha, rfl, hne, ?_⟩
      rw [hr, if_pos ha]
  · rintro ⟨a, ha, rfl, h3, h4⟩
    rw [hr, if_pos ha, if_neg (fun h => h3 (h4 ▸ List.isEmpty_iff.mp h)), h4]

/-- A 2×3 matrix. -/
example : ∃ x, RMCore.matrix ⟨0, 2, 3, 3, 1⟩ (Buf.ofList [0, 5, 7, 0, 0, 0]) = .ok x ∧ x.lists = [(0, [((1 : Int), (5 : Int)), (2, 7)])] :=
  ⟨_, rfl, by decide⟩

/-- **C285 (the full claim is false).** The sizes of the mask made from a matrix are those of the matrix: the last row of this 2×3 matrix is
zero, and the mask has one row. -/
theorem C285_matrix_sizes_fails : ∃ (M : RV2) (m : Buf Int) (X : Nat → Nat → Int) (x : RMCore Int), M.Has m X ∧
    RMCore.matrix M m = .ok x ∧ x.N0 ≠ M.n0 ∧ x.M0 ≠ M.n1 := by
  refine ⟨⟨0, 2, 3, 3, 1⟩, Buf.ofList [4, 5, 0, 0, 0, 0], fun i j => ([4, 5, 0, 0, 0, 0] : List Int).getD (3 * i + j) 0, _, ?_, rfl, ?_, ?_⟩
  · intro i hi j hj
    have hi : i < 2 := hi
    have hj : j < 3 := hj
    interval_cases i <;> interval_cases j <;> rfl
  · decide
  · decide

/-- **C285 (partial).** They are if the last row and the last column have a nonzero entry.  Missing: all other matrices. -/
theorem C285_matrix_sizes_partial [Zero α] [DecidableEq α] (M : RV2) (m : Buf α) (X : Nat → Nat → α) (hM : M.Has m X)
    (h0 : ∃ j, j < M.n1 ∧ X (M.n0 - 1) j ≠ 0) (h1 : ∃ i, i < M.n0 ∧ X i (M.n1 - 1) ≠ 0) :
    ∃ x, RMCore.matrix M m = .ok x ∧ x.N0 = M.n0 ∧ x.M0 = M.n1 := by
  refine ⟨_, rmaskMatrix_run M m X hM, ?_⟩
  have hmem : ∀ e : Int × Int × α, e ∈ ((List.range M.n0).flatMap fun i => (nonzeros X M.n1 i).map fun q => (Int.ofNat i, q.1, q.2)) ↔
      ∃ i j : Nat, i < M.n0 ∧ j < M.n1 ∧ X i j ≠ 0 ∧ e = ((i : Int), (j : Int), X i j) := by
    intro e
    simp only [List.mem_flatMap, List.mem_map, nonzeros, List.mem_range, List.mem_filter, decide_eq_true_eq]
    constructor
    · rintro ⟨i, hi, q, ⟨j, ⟨hj, hx⟩, rfl⟩, rfl⟩
      exact ⟨i, j, hi, hj, hx, rfl⟩
    · rintro ⟨i, j, hi, hj, hx, rfl⟩
      exact ⟨i, hi, _, ⟨j, ⟨hj, hx⟩, rfl⟩, rfl⟩
  obtain ⟨s1, s2⟩ := RMCore.run_sizes ((List.range M.n0).flatMap fun i => (nonzeros X M.n1 i).map fun q => (Int.ofNat i, q.1, q.2)) (by
    intro e he
    obtain ⟨i, j, _, _, _, rfl⟩ := (hmem e).1 he
    exact ⟨Int.natCast_nonneg i, Int.natCast_nonneg j⟩)
  obtain ⟨j0, hj0, hx0⟩ := h0
  obtain ⟨i1, hi1, hx1⟩ := h1
  have a1 := s1.2.1 _ (List.mem_map.mpr ⟨_, (hmem _).2 ⟨M.n0 - 1, j0, by omega, hj0, hx0, rfl⟩, rfl⟩)
  have a2 := s2.2.1 _ (List.mem_map.mpr ⟨_, (hmem _).2 ⟨i1, M.n1 - 1, hi1, by omega, hx1, rfl⟩, rfl⟩)
  dsimp only at a1 a2
  constructor
  · rcases s1.2.2 with h | h
    · omega
    · obtain ⟨e, he, e1⟩ := List.mem_map.mp h
      obtain ⟨i, j, hi, _, _, rfl⟩ := (hmem e).1 he
      dsimp only at e1
      omega
  · rcases s2.2.2 with h | h
    · omega
    · obtain ⟨e, he, e1⟩ := List.mem_map.mp h
      obtain ⟨i, j, _, hj, _, rfl⟩ := (hmem e).1 he
      dsimp only at e1
      omega

example : ∃ x, RMCore.matrix ⟨0, 2, 2, 2, 1⟩ (Buf.ofList [0, 5, 7, 0]) = .ok x ∧ (x.N0, x.M0) = (2, 2) ∧
    x.lists = [(0, [((1 : Int), (5 : Int))]), (1, [(0, 7)])] := ⟨_, rfl, by decide⟩

/-! ## C286: copies -/

/-- **C286 (the full claim is false).** A copy, or a mask moved into a new one, has the sizes of the original: the sizes are not copied. -/
theorem C286_copy_fails : ∃ x : RMask Int, x = RMask.empty.push 2 3 5 ∧
    x.core.N0 = 3 ∧ x.copy.core.N0 = 0 ∧ x.copy.core.M0 = 0 ∧ x.move.1.core.N0 = 0 ∧ x.move.1.core.M0 = 0 :=
  ⟨_, rfl, by decide, by decide, by decide, by decide, by decide⟩

/-- **C286 (partial).** Whatever pushes and calls of `inv()` came before, a copy (and a mask moved into a new one) has the lists of the
original, and its inverse is the inverse of the original.  Missing: `N0` and `M0`. -/
theorem C286_copy_partial (l : List (Use α)) :
    let x := l.foldl (fun (y : RMask α) u => match u with | .push i j v => y.push i j v | .inv => y.inv.1) RMask.empty
    x.copy.core.lists = x.core.lists ∧ x.copy.inv.2 = x.inv.2 ∧ x.move.1.core.lists = x.core.lists ∧ x.move.1.inv.2 = x.inv.2 := by
  intro x
  have hx : x = RMask.after l := by
    show l.foldl _ RMask.empty = l.foldl RMask.use RMask.empty
    rfl
  rw [hx, RMask.inv_eq, ← (RMask.after_spec l).1]
  exact ⟨rfl, rfl, rfl, rfl⟩

example : let x := ([.push 2 0 5, .inv, .push 0 3 7] : List (Use Int)).foldl (fun (y : RMask Int) u => match u with | .push i j v => y.push i j v | .inv => y.inv.1) RMask.empty
    (x.copy.inv.2.N0, x.copy.inv.2.lists) = (4, [(0, [(2, 5)]), (3, [(0, 7)])]) := by decide

/-! ## C287: aggregation -/

/-- **C287.** `Aggregator(r,x,mask)` for matrices, with a mask filled by pushes whose indices are rows of `r` and of `x`: `M·x` is added to
`r`, where `M` is the real matrix whose entry `(i,j)` is the sum of the weights pushed for `(i,j)`; nothing else changes. -/
theorem C287_aggregate [CommSemiring α] (r x : CV2) (l : List (Int × Int × α)) (m : Buf α) (R X : Nat → Nat → Cx α)
    (hR : r.Has m R) (hX : x.Has m X) (hs : r.Sep) (ha : ∀ c, r.Cov c → ¬ x.Cov c) (h1 : x.n1 = r.n1)
    (hl : ∀ e ∈ l, 0 ≤ e.1 ∧ e.1 < r.n0 ∧ 0 ≤ e.2.1 ∧ e.2.1 < x.n0) :
    ∃ m', aggregate2 r x (l.foldl (fun (y : RMCore α) e => y.push e.1 e.2.1 e.2.2) RMCore.empty) m = .ok m' ∧
      r.Has m' (fun i k => R i k + ∑ j ∈ Finset.range x.n0, ⟨entry l i j * (X j k).re, entry l i j * (X j k).im⟩) ∧
      ∀ c, ¬ r.Cov c → m' c = m c := aggregate2_run r x hs ha h1 X l m R hR hX hl

/-- The matrix [[0,2],[3,4]] times the column (1+2i, 5+6i). -/
example : ∃ m', aggregate2 ⟨0, 1, 2, 1, 2, 2⟩ ⟨4, 5, 2, 1, 2, 2⟩
    (([(1, 0, 3), (0, 1, 2), (1, 1, 4)] : List (Int × Int × Int)).foldl (fun (y : RMCore Int) e => y.push e.1 e.2.1 e.2.2) RMCore.empty)
    (Buf.ofList [100, 0, 0, 0, 1, 2, 5, 6]) = .ok m' ∧ (List.range 8).map m' = [110, 12, 23, 30, 1, 2, 5, 6].map some :=
  ⟨_, rfl, by decide⟩

/-- **C288.** With the inverse of a mask, `Aggregator(r,x,mask.inv())` adds `Mᵀ·x`, whatever pushes and calls of `inv()` came before. -/
theorem C288_aggregate_inverse [CommSemiring α] (r x : CV2) (l : List (Use α)) (m : Buf α) (R X : Nat → Nat → Cx α)
    (hR : r.Has m R) (hX : x.Has m X) (hs : r.Sep) (ha : ∀ c, r.Cov c → ¬ x.Cov c) (h1 : x.n1 = r.n1)
    (hl : ∀ e ∈ pushes l, 0 ≤ e.1 ∧ e.1 < x.n0 ∧ 0 ≤ e.2.1 ∧ e.2.1 < r.n0) :
    let M := l.foldl (fun (y : RMask α) u => match u with | .push i j v => y.push i j v | .inv => y.inv.1) RMask.empty
    ∃ m', aggregate2 r x M.inv.2 m = .ok m' ∧
      r.Has m' (fun i k => R i k + ∑ j ∈ Finset.range x.n0, ⟨entry (pushes l) j i * (X j k).re, entry (pushes l) j i * (X j k).im⟩) ∧
      ∀ c, ¬ r.Cov c → m' c = m c := by
  intro M
  have hx : M = RMask.after l := by
    show l.foldl _ RMask.empty = l.foldl RMask.use RMask.empty
    rfl
  rw [hx, RMask.inv_eq, RMCore.inverted_eq]
  obtain ⟨m', e, g1, g2⟩ := aggregate2_run r x hs ha h1 X ((RMCore.flat (RMCore.run (pushes l)).lists).map RMCore.swap) m R hR hX (by
    intro e he
    obtain ⟨a, ha, rfl⟩ := List.mem_map.mp he
    obtain ⟨p1, p2, p3, p4⟩ := hl a ((RMCore.mem_flat_run _ a).1 ha)
    exact ⟨p3, p4, p1, p2⟩)
  refine ⟨m', e, g1.congr ?_, g2⟩
  intro i _ k _
  congr 1
  apply Finset.sum_congr rfl
  intro j _
  have : entry ((RMCore.flat (RMCore.run (pushes l)).lists).map RMCore.swap) i j = entry (pushes l) j i := by
    unfold entry
    rw [RMCore.valuesAt_swap, RMCore.valuesAt_flat]
  rw [this]
  rfl

/-- The transpose of [[0,2],[3,4]] times the column (1+2i, 5+6i); the last push comes after a call of `inv()`. -/
example : ∃ m', aggregate2 ⟨0, 1, 2, 1, 2, 2⟩ ⟨4, 5, 2, 1, 2, 2⟩
    (([.push 1 0 3, .push 0 1 2, .inv, .push 1 1 4] : List (Use Int)).foldl
      (fun (y : RMask Int) u => match u with | .push i j v => y.push i j v | .inv => y.inv.1) RMask.empty).inv.2
    (Buf.ofList [100, 0, 0, 0, 1, 2, 5, 6]) = .ok m' ∧ (List.range 8).map m' = [115, 18, 22, 28, 1, 2, 5, 6].map some :=
  ⟨_, rfl, by decide⟩

/-! ## C289: three and four axes -/

/-- **C289 (the full claim is false).** With three axes the rows `R(i,·,·)` receive the weighted `X(j,·,·)` for all layouts: the entries of
`r` lie in different cells, but entry `(0,1,0)` receives nothing, because the last two axes are fused without looking at the
stride of the middle one. -/
theorem C289_aggregate_axes_fails : ∃ (r x : CV3) (l : List (Int × Int × Int)) (m m' : Buf Int), r.Sep ∧ (∀ c, r.Cov c → ¬ x.Cov c) ∧
    x.n1 = r.n1 ∧ x.n2 = r.n2 ∧ (∀ e ∈ l, 0 ≤ e.1 ∧ e.1 < r.n0 ∧ 0 ≤ e.2.1 ∧ e.2.1 < x.n0) ∧
    r.Has m (fun _ _ _ => ⟨0, 0⟩) ∧ x.Has m (fun _ _ _ => ⟨1, 1⟩) ∧
    aggregate3 r x (l.foldl (fun (y : RMCore Int) e => y.push e.1 e.2.1 e.2.2) RMCore.empty) m = .ok m' ∧
    r.Has m' (fun _ j _ => if j = 0 then ⟨1, 1⟩ else ⟨0, 0⟩) := by
  refine ⟨⟨0, 1, 1, 2, 1, 8, 4, 2⟩, ⟨8, 9, 1, 2, 1, 4, 2, 2⟩, [(0, 0, 1)], Buf.ofList [0, 0, 0, 0, 0, 0, 0, 0, 1, 1, 1, 1], _, ?_, ?_, rfl, rfl, ?_, ?_, ?_, rfl, ?_⟩
  · intro i hi j hj k hk a ha b hb c hc
    have hi : i < 1 := hi
    have hj : j < 2 := hj
    have hk : k < 1 := hk
    have ha : a < 1 := ha
    have hb : b < 2 := hb
    have hc : c < 1 := hc
    simp only [CV3.off]
    omega
  · rintro c ⟨i, hi, j, hj, k, hk, h⟩ ⟨a, ha, b, hb, d, hd, h'⟩
    have hi : i < 1 := hi
    have hj : j < 2 := hj
    have hk : k < 1 := hk
    simp only [CV3.off] at h h'
    omega
  · intro e he
    rw [List.mem_singleton] at he
    subst he
    decide
  · intro i hi j hj k hk
    have hi : i < 1 := hi
    have hj : j < 2 := hj
    have hk : k < 1 := hk
    interval_cases i; interval_cases j <;> interval_cases k <;> exact ⟨rfl, rfl⟩
  · intro i hi j hj k hk
    have hi : i < 1 := hi
    have hj : j < 2 := hj
    have hk : k < 1 := hk
    interval_cases i; interval_cases j <;> interval_cases k <;> exact ⟨rfl, rfl⟩
  · intro i hi j hj k hk
    have hi : i < 1 := hi
    have hj : j < 2 := hj
    have hk : k < 1 := hk
    interval_cases i; interval_cases j <;> interval_cases k <;> exact ⟨rfl, rfl⟩

/-- **C289 (partial).** Three axes, when the last two axes of both tensors can be fused.  Missing: other layouts. -/
theorem C289_aggregate_three_partial [CommSemiring α] (r x : CV3) (l : List (Int × Int × α)) (m : Buf α) (R X : Nat → Nat → Nat → Cx α)
    (hR : r.Has m R) (hX : x.Has m X) (hs : r.Sep) (ha : ∀ c, r.Cov c → ¬ x.Cov c) (h1 : x.n1 = r.n1) (h2 : x.n2 = r.n2)
    (hr : r.s1 = r.n2 * r.s2) (hx : x.s1 = x.n2 * x.s2)
    (hl : ∀ e ∈ l, 0 ≤ e.1 ∧ e.1 < r.n0 ∧ 0 ≤ e.2.1 ∧ e.2.1 < x.n0) :
    ∃ m', aggregate3 r x (l.foldl (fun (y : RMCore α) e => y.push e.1 e.2.1 e.2.2) RMCore.empty) m = .ok m' ∧
      r.Has m' (fun i j k => R i j k + ∑ a ∈ Finset.range x.n0, ⟨entry l i a * (X a j k).re, entry l i a * (X a j k).im⟩) ∧
      ∀ c, ¬ r.Cov c → m' c = m c := by
  obtain ⟨m', e, g1, g2⟩ := aggregate2_run r.fuse12 x.fuse12 (CV3.fuse12_sep hr hs)
    (fun c h h' => ha c ((CV3.fuse12_cov hr c).1 h) ((CV3.fuse12_cov hx c).1 h'))
    (show x.n1 * x.n2 = r.n1 * r.n2 by rw [h1, h2]) _ l m _ (CV3.fuse12_has hr hR) (CV3.fuse12_has hx hX) hl
  refine ⟨m', e, (CV3.has_fuse12 hr g1).congr ?_, fun c hc => g2 c fun h => hc ((CV3.fuse12_cov hr c).1 h)⟩
  intro i _ j _ k hk
  rw [h2, RV2.flat_div hk, RV2.flat_mod hk]
  rfl

example : ∃ m', aggregate3 ⟨0, 1, 1, 2, 1, 4, 2, 2⟩ ⟨4, 5, 2, 2, 1, 4, 2, 2⟩
    (([(0, 1, 3), (0, 0, 2)] : List (Int × Int × Int)).foldl (fun (y : RMCore Int) e => y.push e.1 e.2.1 e.2.2) RMCore.empty)
    (Buf.ofList [100, 0, 0, 0, 1, 2, 5, 6, 10, 20, 30, 40]) = .ok m' ∧ (List.range 4).map m' = [132, 64, 100, 132].map some :=
  ⟨_, rfl, by decide⟩

/-- **C289 (partial).** Four axes, when the last three axes of both tensors can be fused.  Missing: other layouts. -/
theorem C289_aggregate_four_partial [CommSemiring α] (r x : CV4) (l : List (Int × Int × α)) (m : Buf α) (R X : Nat → Nat → Nat → Nat → Cx α)
    (hR : r.Has m R) (hX : x.Has m X) (hs : r.Sep) (ha : ∀ c, r.Cov c → ¬ x.Cov c) (h1 : x.n1 = r.n1) (h2 : x.n2 = r.n2) (h3 : x.n3 = r.n3)
    (hr : r.s2 = r.n3 * r.s3) (hx : x.s2 = x.n3 * x.s3) (hr' : r.s1 = r.n2 * r.s2) (hx' : x.s1 = x.n2 * x.s2)
    (hl : ∀ e ∈ l, 0 ≤ e.1 ∧ e.1 < r.n0 ∧ 0 ≤ e.2.1 ∧ e.2.1 < x.n0) :
    ∃ m', aggregate4 r x (l.foldl (fun (y : RMCore α) e => y.push e.1 e.2.1 e.2.2) RMCore.empty) m = .ok m' ∧
      r.Has m' (fun i j k n => R i j k n + ∑ a ∈ Finset.range x.n0, ⟨entry l i a * (X a j k n).re, entry l i a * (X a j k n).im⟩) ∧
      ∀ c, ¬ r.Cov c → m' c = m c := by
  obtain ⟨m', e, g1, g2⟩ := C289_aggregate_three_partial r.fuse23 x.fuse23 l m _ _ (CV4.fuse23_has hr hR) (CV4.fuse23_has hx hX)
    (CV4.fuse23_sep hr hs) (fun c h h' => ha c ((CV4.fuse23_cov hr c).1 h) ((CV4.fuse23_cov hx c).1 h')) h1
    (show x.n2 * x.n3 = r.n2 * r.n3 by rw [h2, h3])
    (show r.s1 = r.n2 * r.n3 * r.s3 by rw [hr', hr, Nat.mul_assoc]) (show x.s1 = x.n2 * x.n3 * x.s3 by rw [hx', hx, Nat.mul_assoc]) hl
  refine ⟨m', e, (CV4.has_fuse23 hr g1).congr ?_, fun c hc => g2 c fun h => hc ((CV4.fuse23_cov hr c).1 h)⟩
  intro i _ j _ k _ n hn
  rw [h3, RV2.flat_div hn, RV2.flat_mod hn]
  rfl

example : ∃ m', aggregate4 ⟨0, 1, 1, 1, 1, 2, 4, 4, 4, 2⟩ ⟨4, 5, 2, 1, 1, 2, 4, 4, 4, 2⟩
    (([(0, 1, 3), (0, 0, 2)] : List (Int × Int × Int)).foldl (fun (y : RMCore Int) e => y.push e.1 e.2.1 e.2.2) RMCore.empty)
    (Buf.ofList [100, 0, 0, 0, 1, 2, 5, 6, 10, 20, 30, 40]) = .ok m' ∧ (List.range 4).map m' = [132, 64, 100, 132].map some :=
  ⟨_, rfl, by decide⟩

/-! ## C290: what is refused -/

/-- **C290 (the full claim is false).** A mask with a row index outside the result is refused: here row 1 of a result with one row is written,
which lies in the cells of another tensor. -/
theorem C290_refuses_fails : ∃ (r x : CV2) (l : List (Int × Int × Int)) (m m' : Buf Int), (∃ e ∈ l, ¬ e.1 < r.n0) ∧ r.Sep ∧
    aggregate2 r x (l.foldl (fun (y : RMCore Int) e => y.push e.1 e.2.1 e.2.2) RMCore.empty) m = .ok m' ∧
    ∃ c, ¬ r.Cov c ∧ m' c ≠ m c := by
  refine ⟨⟨0, 1, 1, 1, 2, 2⟩, ⟨4, 5, 1, 1, 2, 2⟩, [(1, 0, 3)], Buf.ofList [0, 0, 7, 7, 1, 2], _, ⟨_, List.mem_singleton_self _, by decide⟩, ?_, rfl, 2, ?_, by decide⟩
  · intro i hi j hj a ha b hb
    have hi : i < 1 := hi
    have hj : j < 1 := hj
    have ha : a < 1 := ha
    have hb : b < 1 := hb
    simp only [CV2.off]
    omega
  · rintro ⟨i, hi, j, hj, h⟩
    have hi : i < 1 := hi
    have hj : j < 1 := hj
    simp only [CV2.off] at h
    omega

/-- **C290 (partial).** Rows of different length are refused as soon as the mask is not empty, before anything is written.  Missing: indices
outside the tensors, and different shapes of rows with more than one axis and the same number of entries. -/
theorem C290_refuses_partial [Add α] [Mul α] (r x : CV2) (e : Int × Int × α) (l : List (Int × Int × α)) (m : Buf α)
    (hl : ∀ a ∈ e :: l, 0 ≤ a.1 ∧ 0 ≤ a.2.1) (h1 : x.n1 ≠ r.n1) :
    aggregate2 r x ((e :: l).foldl (fun (y : RMCore α) e => y.push e.1 e.2.1 e.2.2) RMCore.empty) m = .throw := by
  show aggregate2 r x (RMCore.run (e :: l)) m = .throw
  obtain ⟨g1, g2⟩ := RMCore.run_lists (e :: l)
  have hmem := RMCore.mem_flat_run (e :: l)
  rw [aggregate2_eq r x]
  · cases h : RMCore.flat (RMCore.run (e :: l)).lists with
    | nil =>
      have := (hmem e).2 (by simp)
      rw [h] at this
      cases this
    | cons a t =>
      rw [Res.forM_cons]
      unfold aggStep CV1.addS
      rw [show decide ((r.slice0 a.1.toNat).n0 = (x.slice0 a.2.1.toNat).n0) = false from decide_eq_false (fun h => h1 h.symm), Res.assrt_false]
      rfl
  · intro p hp
    have h2 := (OMap.mem_iff g1 (k := p.1) (v := p.2)).1 hp
    rw [g2] at h2
    split at h2
    · cases h2
    · rename_i c
      obtain ⟨q, hq⟩ := List.exists_mem_of_ne_nil _ (fun h => c (List.isEmpty_iff.mpr h))
      obtain ⟨e', he, _⟩ := List.mem_map.mp hq
      obtain ⟨h3, h4⟩ := List.mem_filter.mp he
      rw [decide_eq_true_eq] at h4
      rw [← h4]
      exact (hl e' h3).1
  · intro a ha
    exact (hl a ((hmem a).1 ha)).2

example : aggregate2 ⟨0, 1, 1, 1, 2, 2⟩ ⟨4, 5, 1, 2, 4, 2⟩ (([(0, 0, 3)] : List (Int × Int × Int)).foldl
    (fun (y : RMCore Int) e => y.push e.1 e.2.1 e.2.2) RMCore.empty) (Buf.ofList [0, 0, 7, 7, 1, 2]) = .throw := rfl

end Cnine
