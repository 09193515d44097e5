import Verif.Lemmas.CSR
import Verif.Props.Sparse

/-!
# C49: conversions to CSR keep the entries; C50: lookup; C51: transpose; C93–C96: further operations of CSR matrices
-/

namespace Cnine

open SpSpec SpMat CSR

variable {α : Type _}

/-! ## C49 -/

theorem CSR.mem_vrow {x : SpMat α} (h : x.WF) {i : Nat} {j : Int} {v : α} :
    (j, v) ∈ vrow x i ↔ x.stored i j = some v := by
  unfold vrow stored
  cases hf : OMap.find? (i : Int) x.lists with
  | none => simp
  | some r =>
    simp only [Option.getD_some, Option.bind_some]
    exact OMap.mem_iff (h.cols _ (OMap.mem_of_find? hf))

theorem CSR.vrow_entries {x : SpMat α} (h : x.WF) (n : Nat) :
    ((List.range n).flatMap fun i => (vrow x i).map fun q => ((i : Int), q.1, q.2)) =
      x.entries.filter fun e => decide (0 ≤ e.1 ∧ e.1 < (n : Int)) := by
  apply before_unique
  · rw [List.pairwise_flatMap]
    refine ⟨fun i _ => ?_, ?_⟩
    · rw [List.pairwise_map]
      unfold vrow
      cases hf : OMap.find? (i : Int) x.lists with
      | none => exact List.Pairwise.nil
      | some r =>
        have hs := h.cols _ (OMap.mem_of_find? hf)
        unfold OMap.Sorted at hs
        rw [List.pairwise_map] at hs
        exact hs.imp fun hab => Or.inr ⟨rfl, hab⟩
    · refine List.pairwise_lt_range.imp ?_
      intro i i' hi a ha b hb
      obtain ⟨_, _, rfl⟩ := List.mem_map.mp ha
      obtain ⟨_, _, rfl⟩ := List.mem_map.mp hb
      exact Or.inl (by dsimp only; omega)
  · exact (entries_sorted h).sublist List.filter_sublist
  · rintro ⟨i, j, v⟩
    rw [List.mem_flatMap, List.mem_filter, mem_entries h]
    constructor
    · rintro ⟨a, ha, hm⟩
      obtain ⟨⟨b, w⟩, hq, e⟩ := List.mem_map.mp hm
      cases e
      have := List.mem_range.mp ha
      exact ⟨(mem_vrow h).mp hq, by simp; omega⟩
    · rintro ⟨hs, hd⟩
      have hd := of_decide_eq_true hd
      obtain ⟨a, ha⟩ := Int.eq_ofNat_of_zero_le hd.1
      dsimp only at ha hd
      subst ha
      exact ⟨a, List.mem_range.mpr (by omega), List.mem_map.mpr ⟨(j, v), (mem_vrow h).mpr hs, rfl⟩⟩

theorem CSR.ofSparse_ok {x : SpMat α} (h : x.WF) {n : Nat} (hn : x.n = n) :
    ∃ c, ofSparse x = .ok c ∧ c.n = 0 ∧ c.m = 0 ∧ c.Has ((List.range n).map (vrow x)) := by
  obtain ⟨d, e1, e2⟩ := Dir.resize0_ok Dir.fits_noalloc (Nat.zero_le n)
  have hp : ({ (Pool.empty : Pool (CCell α)) with dir := d }).Part n [] :=
    Pool.part_nil e2 rfl (by simp [Pool.empty]) (by simp [Pool.empty])
  obtain ⟨p, f1, f2, f3, f4, f5, f6, f7⟩ := Pool.reserve_ok hp (2 * x.size : Nat)
  have hsz : ((List.range' 0 n).map fun i => 2 * (vrow x i).length).sum ≤ 2 * x.size := by
    have e := congrArg List.length (vrow_entries h n)
    rw [List.length_flatMap] at e
    simp only [List.length_map] at e
    have hle : (x.entries.filter fun e => decide (0 ≤ e.1 ∧ e.1 < (n : Int))).length ≤ x.size := by
      rw [size_eq]; exact List.length_filter_le _ _
    have : ∀ (l : List Nat) (f : Nat → Nat), (l.map fun i => 2 * f i).sum = 2 * (l.map f).sum := by
      intro l f
      induction l with
      | nil => rfl
      | cons a l ih => simp only [List.map_cons, List.sum_cons, ih]; omega
    rw [this, ← List.range_eq_range']
    omega
  obtain ⟨p', g1, g2⟩ := rowsLoop_ok x n p [] n
    (Pool.part_nil (by rw [f2]; exact e2) (by rw [f3]; rfl) (by omega) f6) (by simp) (by
      rw [f3]; simp only [Pool.empty, List.length_nil]; omega)
  refine ⟨⟨p', 0, 0⟩, ?_, rfl, rfl, ?_⟩
  · unfold ofSparse
    have e1' : (Pool.empty : Pool (CCell α)).dir.resize0 n = .ok d := e1
    rw [hn, e1', Res.ok_bind]
    have f1' : ({ (Pool.empty : Pool (CCell α)) with dir := d }).reserve (2 * (x.size : Int)) = .ok p := f1
    rw [f1', Res.ok_bind, Int.toNat_natCast]
    have g1' : rowsLoop x 0 n p = .ok p' := g1
    rw [g1', Res.ok_bind]
  · unfold Has
    rw [List.map_map, List.range_eq_range']
    rw [List.nil_append] at g2
    exact g2

/-- **C49** For every reachable sparse matrix, `csrmatrix()` succeeds and its visitor lists exactly the cells with
nonnegative row, with their values, row by row in the order of the sparse matrix; the shape is recorded as 0×0. -/
theorem C49_csrmatrix (P : Pun α) (n : Nat) (m : Int) (ops : List (Op α)) :
    ∃ c, ofSparse (ops.foldl step (new n m)) = .ok c ∧ c.pool.size = n ∧ c.n = 0 ∧ c.m = 0 ∧
      c.entries P = .ok ((ops.foldl step (new n m)).entries.filter fun e => decide (0 ≤ e.1)) := by
  obtain ⟨h1, h2, h3, h4⟩ := run_ok n m ops
  obtain ⟨c, e1, e2, e3, e4⟩ := ofSparse_ok h1 h2
  refine ⟨c, e1, ?_, e2, e3, ?_⟩
  · have : c.pool.size = _ := Pool.Part.size e4
    simpa using this
  · rw [entries_ok P e4, listRows_range, vrow_entries h1]
    congr 1
    apply List.filter_congr
    intro e he
    obtain ⟨p, hp1, hp2⟩ := List.mem_flatMap.mp he
    obtain ⟨q, hq, e'⟩ := List.mem_map.mp hp2
    have hlt := h1.rlt p hp1
    rw [h2] at hlt
    subst e'
    dsimp only
    simp [hlt]

/-- Conversions for the examples: values are integers, indices and values do not get mixed up. -/
def Pun.example : Pun Int := ⟨fun v => v, fun i => i, fun i => if i = 1 then 1065353216 else i⟩

example : (ofSparse (([.set 2 1 5, .set 0 1 6, .set 0 0 4, .set (-1) 0 9] : List (Op Int)).foldl step (new 3 2)) >>=
    fun c => c.entries Pun.example) = .ok [(0, 0, 4), (0, 1, 6), (2, 1, 5)] := by decide

theorem CSR.ofDense_ok [Zero α] [DecidableEq α] (n m : Nat) (x : Nat → Nat → α) :
    ∃ c, CSR.ofDense n m x = .ok c ∧ c.n = n ∧ c.m = m ∧ c.Has ((List.range n).map (denseRow m x)) := by
  obtain ⟨d, e1, e2⟩ := Dir.resize0_ok (Dir.fits_raw n) (Nat.le_refl n)
  have hp : ({ (Pool.ofSize n : Pool (CCell α)) with dir := d }).Part n [] :=
    Pool.part_nil e2 rfl (by simp [Pool.ofSize]) (by simp [Pool.ofSize])
  obtain ⟨p, f1, f2, f3, f4, f5, f6, f7⟩ := Pool.reserve_ok hp
    (2 * ((SpMat.grid n m).filter fun (q : Nat × Nat) => x q.1 q.2 ≠ 0).length : Nat)
  have hsz : ((List.range' 0 n).map fun i => 2 * (denseRow m x i).length).sum =
      2 * ((SpMat.grid n m).filter fun (q : Nat × Nat) => x q.1 q.2 ≠ 0).length := by
    unfold grid
    rw [List.filter_flatMap, List.length_flatMap, ← List.range_eq_range']
    have : ∀ (l : List Nat) (f : Nat → Nat), (l.map fun i => 2 * f i).sum = 2 * (l.map f).sum := by
      intro l f
      induction l with
      | nil => rfl
      | cons a l ih => simp only [List.map_cons, List.sum_cons, ih]; omega
    rw [this]
    congr 2
    apply List.map_congr_left
    intro i _
    unfold denseRow
    rw [List.length_map, List.filter_map, List.length_map]
    rfl
  obtain ⟨p', g1, g2⟩ := denseLoop_ok m x n { p with tail := 0 } [] n
    (Pool.part_nil (by rw [f2]; exact e2) rfl (by dsimp only; omega) f6) (by simp) (by
      simp only [List.length_nil]; rw [hsz]; omega)
  refine ⟨⟨p', n, m⟩, ?_, rfl, rfl, ?_⟩
  · unfold CSR.ofDense
    have e1' : (Pool.ofSize n : Pool (CCell α)).dir.resize0 n = .ok d := e1
    dsimp only
    rw [e1', Res.ok_bind]
    have f1' : ({ (Pool.ofSize n : Pool (CCell α)) with dir := d }).reserve
      (2 * (((SpMat.grid n m).filter fun (q : Nat × Nat) => x q.1 q.2 ≠ 0).length : Int)) = .ok p := f1
    rw [f1', Res.ok_bind]
    have g1' : denseLoop m x 0 n { p with tail := 0 } = .ok p' := g1
    rw [g1', Res.ok_bind]
  · unfold Has
    rw [List.map_map, List.range_eq_range']
    rw [List.nil_append] at g2
    exact g2

theorem CSR.dense_entries [Zero α] [DecidableEq α] (n m : Nat) (x : Nat → Nat → α) :
    listRows 0 ((List.range n).map (denseRow m x)) =
      ((grid n m).filter fun (p : Nat × Nat) => x p.1 p.2 ≠ 0).map fun (p : Nat × Nat) => ((p.1 : Int), (p.2 : Int), x p.1 p.2) := by
  rw [listRows_range]
  unfold grid denseRow
  rw [List.filter_flatMap, List.map_flatMap]
  congr 1
  funext i
  rw [List.filter_map, List.map_map, List.map_map]
  rfl

/-- **C49** Conversion of a dense matrix succeeds; the visitor lists its nonzero cells row by row, and the shape is kept. -/
theorem C49_ofDense [Zero α] [DecidableEq α] (P : Pun α) (n m : Nat) (x : Nat → Nat → α) :
    ∃ c, CSR.ofDense n m x = .ok c ∧ c.n = n ∧ c.m = m ∧
      c.entries P = .ok (((grid n m).filter fun (p : Nat × Nat) => x p.1 p.2 ≠ 0).map
        fun (p : Nat × Nat) => ((p.1 : Int), (p.2 : Int), x p.1 p.2)) := by
  obtain ⟨c, h1, h2, h3, h4⟩ := CSR.ofDense_ok n m x
  exact ⟨c, h1, h2, h3, by rw [entries_ok P h4, dense_entries]⟩

example : (CSR.ofDense 2 3 (fun i j => if i = j then 0 else (3 * i + j : Int)) >>= fun c => c.entries Pun.example) =
    .ok [(0, 1, 1), (0, 2, 2), (1, 0, 3), (1, 2, 5)] := by decide

theorem CSR.before_dense [Zero α] [DecidableEq α] (n m : Nat) (x : Nat → Nat → α) :
    (((grid n m).filter fun (p : Nat × Nat) => x p.1 p.2 ≠ 0).map
        fun (p : Nat × Nat) => ((p.1 : Int), (p.2 : Int), x p.1 p.2)).Pairwise Before := by
  rw [List.pairwise_map]
  refine List.Pairwise.sublist List.filter_sublist ?_
  unfold grid
  rw [List.pairwise_flatMap]
  refine ⟨fun i _ => ?_, ?_⟩
  · rw [List.pairwise_map]
    refine List.pairwise_lt_range.imp fun hab => Or.inr ⟨rfl, ?_⟩
    dsimp only; omega
  · refine List.pairwise_lt_range.imp ?_
    intro i i' hi a ha b hb
    obtain ⟨_, _, rfl⟩ := List.mem_map.mp ha
    obtain ⟨_, _, rfl⟩ := List.mem_map.mp hb
    exact Or.inl (by dsimp only; omega)

/-- **C49** dense → CSR → dense is the identity. -/
theorem C49_roundtrip [Zero α] [DecidableEq α] (P : Pun α) (n m : Nat) (x : Nat → Nat → α) :
    ∃ c a, CSR.ofDense n m x = .ok c ∧ c.dense P = .ok a ∧ a.length = n * m ∧
      ∀ i j, i < n → j < m → a[m * i + j]? = some (some (x i j)) := by
  obtain ⟨c, h1, h2, h3, h4⟩ := C49_ofDense P n m x
  obtain ⟨b, g1, g2, g3⟩ := store_ok n m (((grid n m).filter fun (p : Nat × Nat) => x p.1 p.2 ≠ 0).map
        fun (p : Nat × Nat) => ((p.1 : Int), (p.2 : Int), x p.1 p.2)) (List.replicate (n * m) (some 0)) (by simp) (by
    intro e he
    obtain ⟨p, hp, rfl⟩ := List.mem_map.mp he
    have := mem_grid.mp (List.mem_of_mem_filter hp)
    dsimp only
    omega)
  refine ⟨c, b, h1, ?_, g2, ?_⟩
  · unfold CSR.dense
    rw [h4, Res.ok_bind, h2, h3]
    exact g1
  · intro i j hi hj
    rw [g3 i j hi hj]
    have hlt : m * i + j < n * m := by
      calc m * i + j < m * i + m := by omega
        _ = m * (i + 1) := by rw [Nat.mul_succ]
        _ ≤ m * n := Nat.mul_le_mul_left _ hi
        _ = n * m := Nat.mul_comm _ _
    rw [List.getElem?_replicate, if_pos hlt]
    by_cases c : x i j = 0
    · cases hl : lastOf (((grid n m).filter fun (p : Nat × Nat) => x p.1 p.2 ≠ 0).map
        fun (p : Nat × Nat) => ((p.1 : Int), (p.2 : Int), x p.1 p.2)) i j with
      | none => rw [c]; rfl
      | some v =>
        obtain ⟨⟨a, b⟩, hp, e⟩ := List.mem_map.mp (lastOf_mem hl)
        injection e with e1 e2
        injection e2 with e2 e3
        have e1 := Int.ofNat_inj.mp e1
        have e2 := Int.ofNat_inj.mp e2
        dsimp only at e1 e2
        subst e1 e2
        have := of_decide_eq_true (List.mem_filter.mp hp).2
        exact absurd c this
    · rw [(lastOf_iff ((before_dense n m x).imp fun hab => hab.ne) (v := x i j)).mpr
        (List.mem_map.mpr ⟨(i, j), List.mem_filter.mpr ⟨mem_grid.mpr ⟨hi, hj⟩, by simpa using c⟩, rfl⟩)]
      rfl

example : (CSR.ofDense 2 2 (fun i j => if i = j then 0 else (3 * i + j : Int)) >>= fun c => c.dense Pun.example) =
    .ok [some 0, some 1, some 3, some 0] := by decide

/-! ## C93: what becomes of the shape -/

/-- **C93** Since `csrmatrix()` records no shape, converting its result to a dense tensor, or transposing it, goes out of
bounds as soon as there is one entry. -/
theorem C93_csrmatrix_shape_fails [Zero α] (P : Pun α) (n : Nat) (m : Int) (ops : List (Op α)) (i j : Int) (v : α)
    (hi : 0 ≤ i) (hv : (i, j, v) ∈ (ops.foldl step (new n m)).entries) :
    ∃ c, ofSparse (ops.foldl step (new n m)) = .ok c ∧ c.dense P = .ub ∧ makeTransp P c = .ub := by
  obtain ⟨c, h1, h2, h3, h4, h5⟩ := C49_csrmatrix P n m ops
  have hv' : (i, j, v) ∈ (ops.foldl step (new n m)).entries.filter fun e => decide (0 ≤ e.1) :=
    List.mem_filter.mpr ⟨hv, by simpa using hi⟩
  generalize ((ops.foldl step (new n m)).entries.filter fun e => decide (0 ≤ e.1)) = es at hv' h5
  cases es with
  | nil => simp at hv'
  | cons e es =>
    refine ⟨c, h1, ?_, ?_⟩
    · unfold CSR.dense
      rw [h5, Res.ok_bind, h3, h4]
      show (Arr.wr (zeros 0 0) (0 * e.1 + e.2.1) e.2.2 >>= _) = _
      have : Arr.wr (zeros 0 0 : Arr α) (0 * e.1 + e.2.1) e.2.2 = .ub := by
        unfold Arr.wr
        simp [zeros]
      rw [this]; rfl
    · unfold makeTransp
      rw [h4]
      obtain ⟨p, f1, _⟩ := Pool.reserve_ok (Pool.part_ofSize 0 (α := CCell α)) c.pool.tail
      have f1' : (Pool.ofSize 0 : Pool (CCell α)).reserve c.pool.tail = .ok p := f1
      rw [f1', Res.ok_bind, Pool.assrt_pos (by omega), Res.ok_bind, h5, Res.ok_bind]
      have : countCols (e :: es) (List.replicate (0 : Int).toNat 0) = .ub := by
        unfold countCols bump
        split <;> rfl
      rw [this]; rfl

example : (ofSparse (([.set 1 1 5] : List (Op Int)).foldl step (new 2 2)) >>= fun c => c.dense Pun.example) = .ub := by decide

/-! ## C50 -/

/-- **C50** If row `i` stores column `j`, the lookup returns its (first) value. -/
theorem C50_stored_partial (P : Pun α) (c : CSR α) (vs : List (List (Int × α))) (h : c.Has vs) (i : Nat) (j : Int) (w : α)
    (v : List (Int × α)) (hv : vs[i]? = some v) (hj : (v.find? fun e => e.1 = j) = some (j, w)) : c.get P i j = .ok w := by
  obtain ⟨o, h1, h2, h3, h4, h5, h6⟩ := h.row hv
  unfold CSR.get
  rw [Pool.assrt_pos h5, Res.ok_bind, h3, Res.ok_bind, h4, Res.ok_bind]
  exact scan_ok P _ j w v o _ h6 (by omega) hj

/-- **C50** For a matrix made from a dense one, the lookup returns every nonzero cell. -/
theorem C50_dense_partial [Zero α] [DecidableEq α] (P : Pun α) (n m : Nat) (x : Nat → Nat → α) :
    ∃ c, CSR.ofDense n m x = .ok c ∧ ∀ i j : Nat, i < n → j < m → x i j ≠ 0 → c.get P i j = .ok (x i j) := by
  obtain ⟨c, h1, h2, h3, h4⟩ := CSR.ofDense_ok n m x
  refine ⟨c, h1, fun i j hi hj hx => ?_⟩
  refine C50_stored_partial P c _ h4 i j (x i j) (denseRow m x i) (by rw [List.getElem?_map, List.getElem?_range hi]; rfl) ?_
  have hmem : ((j : Int), x i j) ∈ denseRow m x i := by
    unfold denseRow
    exact List.mem_map.mpr ⟨j, List.mem_filter.mpr ⟨List.mem_range.mpr hj, by simpa using hx⟩, rfl⟩
  cases hf : (denseRow m x i).find? fun e => e.1 = (j : Int) with
  | none =>
    have := List.find?_eq_none.mp hf _ hmem
    simp at this
  | some e =>
    have h1 := List.find?_some hf
    have h2 := List.mem_of_find?_eq_some hf
    unfold denseRow at h2
    obtain ⟨k, _, rfl⟩ := List.mem_map.mp h2
    have : k = j := by
      have := of_decide_eq_true h1
      exact Int.ofNat_inj.mp this
    rw [this]

example : (CSR.ofDense 2 2 (fun i j => if i = j then 0 else (3 * i + j : Int)) >>= fun c => c.get Pun.example 1 0) = .ok 3 := by
  decide

/-- **C50** A lookup of a cell that is not stored can return an entry of the next row, or read past the end of the array. -/
theorem C50_absent_fails : ∃ c : CSR Int, CSR.ofDense 2 2 (fun i j => if i = j then 5 + (i : Int) else 0) = .ok c ∧
    c.get Pun.example 0 1 = .ok 6 ∧ c.entries Pun.example = .ok [(0, 0, 5), (1, 1, 6)] ∧ c.get Pun.example 1 0 = .ub := by
  refine ⟨⟨⟨[some (.ix 0), some (.val 5), some (.ix 1), some (.val 6)], 4, 4, ⟨2, 4, [some 0, some 2, some 2, some 2]⟩⟩, 2, 2⟩, ?_⟩
  decide

/-! ## C51 -/

/-- The rows of the transpose, from the entries. -/
def CsrSpec.transpose (m : Nat) (es : List (Int × Int × α)) : List (Int × Int × α) :=
  (List.range m).flatMap fun (j : Nat) => (es.filter fun e => e.2.1 = (j : Int)).map fun e => (e.2.1, e.1, e.2.2)

theorem CsrSpec.transpose_perm (m : Nat) (es : List (Int × Int × α)) (h : ∀ e ∈ es, 0 ≤ e.2.1 ∧ e.2.1 < m) :
    (transpose m es).Perm (es.map fun e => (e.2.1, e.1, e.2.2)) := by
  induction es with
  | nil => simp [transpose]
  | cons e es ih =>
    have ih := ih fun e he => h e (List.mem_cons_of_mem _ he)
    obtain ⟨q, hq⟩ := Int.eq_ofNat_of_zero_le (h e (by simp)).1
    have hqm : q < m := by have := (h e (by simp)).2; omega
    rw [List.map_cons]
    refine List.Perm.trans ?_ (ih.cons _)
    have key : ∀ l : List Nat, q ∈ l → l.Nodup →
        (l.flatMap fun (j : Nat) => ((e :: es).filter fun e => e.2.1 = (j : Int)).map fun e => (e.2.1, e.1, e.2.2)).Perm
          ((e.2.1, e.1, e.2.2) :: l.flatMap fun (j : Nat) => (es.filter fun e => e.2.1 = (j : Int)).map fun e => (e.2.1, e.1, e.2.2)) := by
      intro l
      induction l with
      | nil => simp
      | cons a l ihl =>
        intro hm hd
        rw [List.flatMap_cons, List.flatMap_cons]
        by_cases c : a = q
        · subst c
          rw [List.filter_cons_of_pos (by simpa using hq), List.map_cons, List.cons_append]
          refine List.Perm.cons _ ?_
          apply List.Perm.of_eq
          congr 1
          apply List.flatMap_congr
          intro b hb
          have hne : ¬ e.2.1 = (b : Int) := by
            intro hh
            have : b = a := by omega
            subst this
            exact (List.nodup_cons.mp hd).1 hb
          rw [List.filter_cons_of_neg (by simpa using hne)]
        · have hne : ¬ e.2.1 = (a : Int) := by omega
          rw [List.filter_cons_of_neg (by simpa using hne)]
          have hm' : q ∈ l := by
            rcases List.mem_cons.mp hm with h | h
            · exact absurd h.symm c
            · exact h
          refine (List.Perm.append_left _ (ihl hm' (List.nodup_cons.mp hd).2)).trans ?_
          exact List.perm_middle
    exact key _ (List.mem_range.mpr hqm) List.nodup_range

/-- **C51** `make_transp()` on a matrix all of whose columns lie within the recorded width succeeds, swaps the shape, and the
visitor of the transpose lists the transposed entries, column by column, each once. -/
theorem C51_transp (P : Pun α) (c : CSR α) (vs : List (List (Int × α))) (h : c.Has vs) (m : Nat) (hm : c.m = m)
    (es : List (Int × Int × α)) (hes : c.entries P = .ok es) (hcol : ∀ e ∈ es, 0 ≤ e.2.1 ∧ e.2.1 < m) :
    ∃ t, makeTransp P c = .ok t ∧ t.n = m ∧ t.m = c.n ∧ t.entries P = .ok (CsrSpec.transpose m es) ∧
      (CsrSpec.transpose m es).Perm (es.map fun e => (e.2.1, e.1, e.2.2)) := by
  rw [entries_ok P h] at hes
  injection hes with hes
  subst hes
  obtain ⟨t, h1, h2, h3, h4⟩ := makeTransp_ok P h hm hcol
  refine ⟨t, h1, h2, h3, ?_, CsrSpec.transpose_perm m _ hcol⟩
  rw [entries_ok P h4, listRows_range]
  congr 1
  unfold CsrSpec.transpose
  apply List.flatMap_congr
  intro j _
  unfold col
  rw [List.map_map]
  apply List.map_congr_left
  intro e he
  have := of_decide_eq_true (List.mem_filter.mp he).2
  simp [this]

/-- **C51** The transpose of the matrix of a dense `x` is the matrix of the transposed `x`, as seen by the visitor. -/
theorem C51_dense [Zero α] [DecidableEq α] (P : Pun α) (n m : Nat) (x : Nat → Nat → α) :
    ∃ c t c', CSR.ofDense n m x = .ok c ∧ CSR.ofDense m n (fun j i => x i j) = .ok c' ∧ makeTransp P c = .ok t ∧
      t.n = c'.n ∧ t.m = c'.m ∧ t.entries P = c'.entries P := by
  obtain ⟨c, h1, h2, h3, h4⟩ := CSR.ofDense_ok n m x
  obtain ⟨c', g1, g2, g3, g4⟩ := C49_ofDense P m n fun j i => x i j
  have hes := entries_ok P h4
  rw [dense_entries] at hes
  have hcol : ∀ e ∈ ((grid n m).filter fun (p : Nat × Nat) => x p.1 p.2 ≠ 0).map
      (fun (p : Nat × Nat) => ((p.1 : Int), (p.2 : Int), x p.1 p.2)), 0 ≤ e.2.1 ∧ e.2.1 < (m : Int) := by
    intro e he
    obtain ⟨p, hp, rfl⟩ := List.mem_map.mp he
    have := mem_grid.mp (List.mem_of_mem_filter hp)
    dsimp only
    omega
  obtain ⟨t, k1, k2, k3, k4, k5⟩ := C51_transp P c _ h4 m h3 _ hes hcol
  refine ⟨c, t, c', h1, g1, k1, by rw [k2, g2], by rw [k3, h2, g3], ?_⟩
  rw [k4, g4]
  congr 1
  apply before_unique _ (before_dense m n fun j i => x i j)
  · intro e
    rw [k5.mem_iff]
    simp only [List.mem_map, List.mem_filter]
    constructor
    · rintro ⟨_, ⟨⟨a, b⟩, ⟨hg, hx⟩, rfl⟩, rfl⟩
      have := mem_grid.mp hg
      exact ⟨(b, a), ⟨mem_grid.mpr ⟨this.2, this.1⟩, hx⟩, rfl⟩
    · rintro ⟨⟨b, a⟩, ⟨hg, hx⟩, rfl⟩
      have := mem_grid.mp hg
      exact ⟨_, ⟨(a, b), ⟨mem_grid.mpr ⟨this.2, this.1⟩, hx⟩, rfl⟩, rfl⟩
  · unfold CsrSpec.transpose
    rw [List.pairwise_flatMap]
    refine ⟨fun j _ => ?_, ?_⟩
    · rw [List.pairwise_map]
      have hb := List.Pairwise.sublist (List.filter_sublist (p := fun e => decide (e.2.1 = (j : Int)))) (before_dense n m x)
      refine hb.imp_of_mem ?_
      intro a b ha hb' hab
      have e1 := of_decide_eq_true (List.mem_filter.mp ha).2
      have e2 := of_decide_eq_true (List.mem_filter.mp hb').2
      rcases hab with hab | hab
      · exact Or.inr ⟨by dsimp only; omega, hab⟩
      · omega
    · refine List.pairwise_lt_range.imp ?_
      intro i i' hi a ha b hb
      obtain ⟨a, ha', rfl⟩ := List.mem_map.mp ha
      obtain ⟨b, hb', rfl⟩ := List.mem_map.mp hb
      have e1 := of_decide_eq_true (List.mem_filter.mp ha').2
      have e2 := of_decide_eq_true (List.mem_filter.mp hb').2
      exact Or.inl (by dsimp only; omega)

example : (CSR.ofDense 2 3 (fun i j => if i = j then 0 else (3 * i + j : Int)) >>= fun c => makeTransp Pun.example c >>=
    fun t => t.entries Pun.example) = .ok [(0, 1, 3), (1, 0, 1), (2, 0, 2), (2, 1, 5)] := by decide

/-! ## C94: the cached transpose -/

/-- **C94** `transp()` does not notice later changes: after `transp()`, `set_at` and `transp()` again the entry of the
transpose is still the old one. -/
theorem C94_stale_fails : ∃ (c c' t t' : CSR Int) (k : Option (CSR Int)),
    CSR.ofDense 1 1 (fun _ _ => (5 : Int)) = .ok c ∧ CSR.transp Pun.example c none = .ok (t, k) ∧
    c.setAt 0 0 0 7 = .ok c' ∧ CSR.transp Pun.example c' k = .ok (t', k) ∧
    c'.entries Pun.example = .ok [(0, 0, 7)] ∧ t'.entries Pun.example = .ok [(0, 0, 5)] := by
  refine ⟨⟨⟨[some (.ix 0), some (.val 5)], 2, 2, ⟨1, 2, [some 0, some 2]⟩⟩, 1, 1⟩,
    ⟨⟨[some (.ix 0), some (.val 7)], 2, 2, ⟨1, 2, [some 0, some 2]⟩⟩, 1, 1⟩,
    ⟨⟨[some (.ix 0), some (.val 5)], 2, 2, ⟨1, 2, [some 0, some 2]⟩⟩, 1, 1⟩,
    ⟨⟨[some (.ix 0), some (.val 5)], 2, 2, ⟨1, 2, [some 0, some 2]⟩⟩, 1, 1⟩,
    some ⟨⟨[some (.ix 0), some (.val 5)], 2, 2, ⟨1, 2, [some 0, some 2]⟩⟩, 1, 1⟩, ?_⟩
  decide

/-- **C94** The first `transp()` is `make_transp()`, and a second one without changes returns the same. -/
theorem C94_cached_partial (P : Pun α) (c t : CSR α) (h : makeTransp P c = .ok t) :
    CSR.transp P c none = .ok (t, some t) ∧ CSR.transp P c (some t) = .ok (t, some t) := by
  unfold CSR.transp
  exact ⟨by rw [h]; rfl, rfl⟩

/-! ## C95: `push_back` -/

/-- **C95** `push_back(ix,v)` stores the columns as floating point values, the visitor reads their bit patterns: with
`1.0f` having the bits 0x3f800000, a row with column 1 comes back with column 1065353216, and is not found by lookup. -/
theorem C95_pushBack_fails : ∃ c c' : CSR Int, CSR.ofDense 0 2 (fun _ _ => (0 : Int)) = .ok c ∧
    c.pushBack Pun.example [1] [7] = .ok c' ∧ c'.entries Pun.example = .ok [(0, 1065353216, 7)] ∧
    c'.get Pun.example 0 1 ≠ .ok 7 := by
  refine ⟨⟨⟨[], 0, 0, ⟨0, 0, [none]⟩⟩, 0, 2⟩,
    ⟨⟨[some (.val 1065353216), some (.val 7)], 2, 2, ⟨1, 4, [some 0, some 2, none, none]⟩⟩, 0, 2⟩, ?_⟩
  decide

/-! ## C96: `set_at` -/

/-- **C96** `set_at(i,k,j,v)` replaces the `k`-th entry of row `i` and changes nothing else. -/
theorem C96_setAt (P : Pun α) (c : CSR α) (vs : List (List (Int × α))) (h : c.Has vs) (i k : Nat) (v : List (Int × α))
    (hv : vs[i]? = some v) (hk : k < v.length) (j : Int) (w : α) :
    ∃ c', c.setAt i k j w = .ok c' ∧ c'.n = c.n ∧ c'.m = c.m ∧ c'.Has (vs.set i (v.set k (j, w))) := by
  have hr : (vs.map crow)[i]? = some (crow v) := by rw [List.getElem?_map, hv]; rfl
  obtain ⟨o, h1, h2, h3, h4, h5, h6⟩ := h.row hv
  have ho : off (vs.map crow) i = o := by
    have := h.off_at hr
    rw [h3] at this
    injection this with this
    omega
  have hb : o + (2 * k + 1) < c.pool.arr.length := by
    have b1 := h.bound hr (j := 2 * k + 1) (by rw [crow_room]; omega)
    have b2 := h.tail
    have b3 := h.mem
    have b4 := h.arr
    rw [ho] at b1
    omega
  refine ⟨{ c with pool := { c.pool with arr := (c.pool.arr.set (o + 2 * k) (some (.ix j))).set (o + 2 * k + 1) (some (.val w)) } },
    ?_, rfl, rfl, ?_⟩
  · unfold CSR.setAt
    rw [h1, Res.ok_bind, Arr.wr_ok' (k := o + 2 * k) _ (by omega) (by omega), Res.ok_bind,
      Arr.wr_ok' (k := o + 2 * k + 1) _ (by omega) (by simp; omega)]
    rfl
  · unfold Has
    rw [List.map_set]
    unfold Pool.Holds
    rw [List.length_set]
    have hlen : (v.set k (j, w)).length = v.length := List.length_set
    refine Pool.part_upd h hr (by rw [crow_room, crow_room, hlen]) (by rw [crow_room, crow_len]; exact Nat.le_refl _) h.dir rfl rfl
      (by simp) ?_ (fun _ _ => rfl) ?_ ?_
    · have := h.dir1 i _ hr
      rw [crow_len] at this ⊢
      rw [hlen]; exact this
    · intro a ha
      rw [ho, crow_room] at ha
      dsimp only
      rw [List.getElem?_set_ne (by omega), List.getElem?_set_ne (by omega)]
    · intro a x hx
      rw [ho]
      dsimp only
      unfold crow PoolSpec.Row.full at hx
      rw [List.getElem?_map] at hx
      have hal : a < 2 * v.length := by
        rw [← hlen, ← length_pairs]
        by_cases c : a < ((v.set k (j, w)).flatMap pair).length
        · exact c
        · rw [List.getElem?_eq_none (by omega)] at hx
          cases hx
      obtain ⟨b, hb2⟩ : ∃ b, a = 2 * b ∨ a = 2 * b + 1 := ⟨a / 2, by omega⟩
      have hbl : b < v.length := by omega
      have g1 := pairs_get (v := v.set k (j, w)) (k := b) (List.getElem?_eq_getElem (by rw [hlen]; exact hbl))
      have g0 := pairs_get (v := v) (k := b) (List.getElem?_eq_getElem hbl)
      by_cases ck : k = b
      · subst ck
        simp only [List.getElem_set_self] at g1
        rcases hb2 with e | e
        · rw [e] at hx ⊢
          rw [g1.1] at hx
          rw [List.getElem?_set_ne (by omega), List.getElem?_set_self (by omega)]
          simpa using hx
        · rw [e] at hx ⊢
          rw [g1.2] at hx
          rw [← Nat.add_assoc, List.getElem?_set_self (by simp; omega)]
          simpa using hx
      · rw [List.getElem_set_ne ck] at g1
        rw [List.getElem?_set_ne (by omega), List.getElem?_set_ne (by omega)]
        rcases hb2 with e | e
        · rw [e] at hx ⊢
          rw [g1.1] at hx
          rw [h6 _ _ g0.1]
          simpa using hx
        · rw [e] at hx ⊢
          rw [g1.2] at hx
          rw [h6 _ _ g0.2]
          simpa using hx

example : (CSR.ofDense 2 2 (fun i j => (2 * i + j : Int)) >>= fun c => c.setAt 1 0 1 9 >>= fun c => c.entries Pun.example) =
    .ok [(0, 1, 1), (1, 1, 9), (1, 1, 3)] := by decide

end Cnine
