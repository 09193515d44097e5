import Verif.Lemmas.BlockSparse
import Verif.Lemmas.Elem

/-!
# Properties of the tables with two indices and of the block sparse matrices

C272–C280.  The product of two block matrices is in Props/BlockSparseMul.lean.
-/

namespace Cnine

open BlockSpec

variable {υ : Type _} {α : Type}

/-! ## C272: `double_indexed_map` after any settings -/

/-- `is_filled`, `operator()`, both maps, `for_each` and `size` after any sequence of `set`. -/
theorem C272_double_map [Zero υ] (l : List (Int × Int × υ)) (i j : Int) :
    ((DIMap.run l).isFilled i j = true ↔ ∃ v, (i, j, v) ∈ l) ∧
    (DIMap.run l).get i j = (lastSet l i j).getD 0 ∧
    ((OMap.find? i (DIMap.run l).rmap).bind (OMap.find? j)) = lastSet l i j ∧
    ((OMap.find? j (DIMap.run l).cmap).bind (OMap.find? i)) = lastSet l i j ∧
    (DIMap.run l).forEach.Pairwise Before ∧
    (∀ v, (i, j, v) ∈ (DIMap.run l).forEach ↔ lastSet l i j = some v) ∧
    (DIMap.run l).size = (DIMap.run l).forEach.length := by
  obtain ⟨g, h⟩ := DIMap.run_spec l
  refine ⟨?_, ?_, h i j, (g.eq i j).trans (h i j), DIMap.forEach_before g.r, ?_, DIMap.size_eq _⟩
  · rw [DIMap.isFilled_eq, h]
    unfold lastSet
    rw [Option.isSome_map, List.find?_isSome]
    constructor
    · rintro ⟨e, he, hd⟩
      have hd := of_decide_eq_true hd
      refine ⟨e.2.2, ?_⟩
      rw [← hd.1, ← hd.2]
      exact List.mem_reverse.1 he
    · rintro ⟨v, hv⟩
      exact ⟨_, List.mem_reverse.2 hv, by simp⟩
  · rw [DIMap.get_eq, h]
  · intro v
    rw [DIMap.mem_forEach g.r, h]

example : (DIMap.run [(2, 5, 7), (-1, 5, 3), (2, 0, 4), (2, 5, (9 : Int))]).forEach = [(-1, 5, 3), (2, 0, 4), (2, 5, 9)] ∧
    (DIMap.run [(2, 5, 7), (-1, 5, 3), (2, 0, 4), (2, 5, (9 : Int))]).cmap = [(0, [(2, 4)]), (5, [(-1, 3), (2, 9)])] := by decide

/-! ## C273: `for_each_in_row` -/

/-- `for_each_in_row(i)` lists the entries of row `i` by increasing column, and no value of the map is changed. -/
theorem C273_in_row (l : List (Int × Int × υ)) (i : Int) :
    (((DIMap.run l).forEachInRow i).2.map Prod.fst).Pairwise (· < ·) ∧
    (∀ j v, (j, v) ∈ ((DIMap.run l).forEachInRow i).2 ↔ lastSet l i j = some v) ∧
    ((DIMap.run l).forEachInRow i).1.forEach = (DIMap.run l).forEach ∧
    (∀ a b, ((DIMap.run l).forEachInRow i).1.isFilled a b = (DIMap.run l).isFilled a b) ∧
    ((DIMap.run l).forEachInRow i).1.cmap = (DIMap.run l).cmap := by
  obtain ⟨g, h⟩ := DIMap.run_spec l
  unfold DIMap.forEachInRow
  cases hf : OMap.find? i (DIMap.run l).rmap with
  | some r =>
    have hs := g.r.cols _ (OMap.mem_of_find? hf)
    refine ⟨hs, ?_, rfl, fun _ _ => rfl, rfl⟩
    intro j v
    dsimp only
    rw [OMap.mem_iff hs, ← h]
    unfold DIMap.find2
    rw [hf]
    rfl
  | none =>
    have key : ∀ a b, DIMap.find2 (OMap.set i [] (DIMap.run l).rmap) a b = DIMap.find2 (DIMap.run l).rmap a b := by
      intro a b
      unfold DIMap.find2
      rw [OMap.find?_set]
      by_cases c : a = i
      · subst c; rw [if_pos rfl, hf]; rfl
      · rw [if_neg c]
    refine ⟨List.Pairwise.nil, ?_, ?_, ?_, rfl⟩
    · intro j v
      rw [← h]
      unfold DIMap.find2
      rw [hf]
      simp
    · have : ∀ mm : OMap Int (OMap Int υ), OMap.find? i mm = none →
          (OMap.set i [] mm).flatMap (fun p => p.2.map fun q => (p.1, q.1, q.2)) =
            mm.flatMap fun p => p.2.map fun q => (p.1, q.1, q.2) := by
        intro mm
        induction mm with
        | nil => intro _; simp [OMap.set]
        | cons p mm ih =>
          intro hn
          unfold OMap.find? at hn
          split at hn
          · cases hn
          · rename_i c
            unfold OMap.set
            split
            · simp
            · rw [List.flatMap_cons, List.flatMap_cons, ih hn]
      exact this _ hf
    · intro a b
      rw [DIMap.isFilled_eq, DIMap.isFilled_eq]
      exact congrArg _ (key a b)

example : ((DIMap.run [(2, 5, 7), (2, 0, (4 : Int))]).forEachInRow 2).2 = [(0, 4), (5, 7)] ∧
    ((DIMap.run [(2, 5, 7), (2, 0, (4 : Int))]).forEachInRow 3).2 = [] := by decide

/-! ## C274: `row_offsets` -/

namespace BSM

theorem forM_heads : ∀ (mm : OMap Int (OMap Int Nat)) (acc : List Nat), DIMap.Full mm →
    ∃ l, (Res.forM mm acc fun l p => do
      let e ← value p.2.head?
      .ok (l ++ [e.2])) = .ok (acc ++ l) ∧ l.map some = mm.map fun p => p.2.head?.map Prod.snd
  | [], acc, _ => ⟨[], by simp, rfl⟩
  | p :: mm, acc, h => by
    obtain ⟨e, r, he⟩ : ∃ e r, p.2 = e :: r := by
      cases hp : p.2 with
      | nil => exact absurd hp (h p (by simp))
      | cons e r => exact ⟨e, r, rfl⟩
    obtain ⟨l, h1, h2⟩ := forM_heads mm (acc ++ [e.2]) fun p hp => h p (List.mem_cons_of_mem _ hp)
    refine ⟨e.2 :: l, ?_, ?_⟩
    · rw [Res.forM_cons, he]
      rw [List.head?_cons]
      show (Res.forM mm (acc ++ [e.2]) _) = _
      rw [h1, List.append_assoc, List.singleton_append]
    · rw [List.map_cons, List.map_cons, h2, he]
      rfl

end BSM

/-- After any settings `row_offsets` gives for each row, in order, the offset of its first block. -/
theorem C274_row_offsets_partial (x : BSM) (l : List (Int × Int × Nat)) (hx : x.offsets = DIMap.run l) :
    ∃ w, x.rowOffsets = .ok w ∧ w.length = x.offsets.rmap.length ∧
      ∀ (k : Nat) (i : Int) (r : OMap Int Nat), x.offsets.rmap[k]? = some (i, r) → ∃ j t, w[k]? = some t ∧
        lastSet l i j = some t ∧ ∀ j', j' < j → lastSet l i j' = none := by
  obtain ⟨g, h⟩ := DIMap.run_spec l
  rw [← hx] at g h
  obtain ⟨w, h1, h2⟩ := BSM.forM_heads x.offsets.rmap [] g.rf
  refine ⟨w, by simpa [BSM.rowOffsets] using h1, ?_, ?_⟩
  · have := congrArg List.length h2
    simpa using this
  · intro k i r hk
    have hmem : (i, r) ∈ x.offsets.rmap := List.mem_of_getElem? hk
    have hfind := OMap.find?_of_mem g.r.rows hmem
    cases hr : r with
    | nil => exact absurd hr (g.rf _ hmem)
    | cons e r' =>
      refine ⟨e.1, e.2, ?_, ?_, ?_⟩
      · have h3 : (w.map some)[k]? = (x.offsets.rmap.map fun p => p.2.head?.map Prod.snd)[k]? := by rw [h2]
        rw [List.getElem?_map, List.getElem?_map, hk, hr] at h3
        cases hw : w[k]? with
        | none => rw [hw] at h3; cases h3
        | some t => rw [hw] at h3; simpa using h3
      · rw [← h]
        unfold DIMap.find2
        rw [hfind, hr]
        simp [OMap.find?]
      · intro j' hj
        rw [← h]
        unfold DIMap.find2
        rw [hfind, Option.bind_some, OMap.find?_eq_none]
        intro hm
        have hs := g.r.cols _ hmem
        unfold OMap.Sorted at hs
        rw [hr] at hm hs
        rcases List.mem_cons.1 hm with c | c
        · omega
        · have := (List.pairwise_cons.1 hs).1 _ c
          omega

example : (BSM.mk 2 2 1 1 0 (DIMap.run [(0, 1, 5), (1, 0, 6), (1, 1, 7)])).rowOffsets = .ok [5, 6] := by decide

/-- The full claim, for any use of the table, is false: after `for_each_in_row` of a row that is not there, `row_offsets`
takes the first element of an empty map. -/
theorem C274_row_offsets_fails : ∃ (l : List (Int × Int × Nat)) (i : Int),
    (BSM.mk 2 2 1 1 0 ((DIMap.run l).forEachInRow i).1).rowOffsets = .ub := ⟨[(0, 1, 5)], 1, by decide⟩

/-! ## C275: the constructors from a mask -/

namespace BSM

/-- The settings made by the constructors: the pair at place `t` is given the offset `t`. -/
def maskSets (mask : List (Int × Int)) : List (Int × Int × Nat) := mask.zipIdx.map fun p => (p.1.1, p.1.2, p.2)

theorem offsetsOf_eq (mask : List (Int × Int)) : (offsetsOf mask).1 = DIMap.run (maskSets mask) := by
  induction mask using List.reverseRecOn with
  | nil => rfl
  | append_singleton l p ih =>
    rw [offsetsOf_snoc, ih, (offsetsOf_spec l).2.1]
    unfold maskSets
    rw [List.zipIdx_append, List.map_append]
    simp only [List.zipIdx_singleton, List.map_cons, List.map_nil, Nat.zero_add]
    rw [DIMap.run_snoc]

theorem slice_cell (q bn bm t a b : Nat) : (sliceOf q bn bm t).cell a b = q + (bn * bm * t + (bm * a + b)) := by
  simp [sliceOf, RV2.cell]; omega

theorem slice_lt {bn bm t n a b : Nat} (ht : t < n) (ha : a < bn) (hb : b < bm) : bn * bm * t + (bm * a + b) < n * (bn * bm) :=
  RV2.flat_lt ht (RV2.flat_lt ha hb)

theorem slice_inj {bn bm t a b t' a' b' : Nat} (ha : a < bn) (hb : b < bm) (ha' : a' < bn) (hb' : b' < bm)
    (e : bn * bm * t + (bm * a + b) = bn * bm * t' + (bm * a' + b')) : t = t' ∧ a = a' ∧ b = b' := by
  have h1 : t = t' := by
    rw [← RV2.flat_div (i := t) (RV2.flat_lt ha hb), e, RV2.flat_div (RV2.flat_lt ha' hb')]
  have h2 : bm * a + b = bm * a' + b' := by
    rw [← RV2.flat_mod (i := t) (RV2.flat_lt ha hb), e, RV2.flat_mod (RV2.flat_lt ha' hb')]
  refine ⟨h1, ?_, ?_⟩
  · rw [← RV2.flat_div (i := a) hb, h2, RV2.flat_div hb']
  · rw [← RV2.flat_mod (i := a) hb, h2, RV2.flat_mod hb']

end BSM

/-- The matrix made from a mask: a block at exactly the pairs of the mask, numbered by the place of the pair (the last one if it is
repeated); every block is zero and inside the memory of the matrix; different blocks have no cell in common. -/
theorem C275_constructor [Zero α] (nb mb bn bm : Nat) (mask : List (Int × Int)) (q : Nat) (m : Buf α) :
    let x := (BSM.new nb mb bn bm mask q m).1
    let m' := (BSM.new nb mb bn bm mask q m).2
    (∀ i j, x.offsets.isFilled i j = true ↔ (i, j) ∈ mask) ∧
    (∀ i j t, BSM.offsetIn x.offsets i j = .ok t ↔ LastPlace mask i j t) ∧
    (∀ i j b, (i, j, b) ∈ x.forEachBlock → (i, j) ∈ mask ∧ b.n0 = bn ∧ b.n1 = bm ∧ b.Inj ∧ b.Has m' (fun _ _ => 0) ∧
      ∀ a, a < bn → ∀ c, c < bm → q ≤ b.cell a c ∧ b.cell a c < q + mask.length * (bn * bm)) ∧
    (∀ i j b, (i, j, b) ∈ x.forEachBlock → ∀ i' j' b', (i', j', b') ∈ x.forEachBlock → (i, j) ≠ (i', j') → b.Apart b') ∧
    (∀ c, c < q ∨ q + mask.length * (bn * bm) ≤ c → m' c = m c) := by
  obtain ⟨g, hl, h⟩ := BSM.offsetsOf_spec mask
  dsimp only [BSM.new]
  have hoff : ∀ i j t, BSM.offsetIn (BSM.offsetsOf mask).1 i j = .ok t ↔ LastPlace mask i j t := by
    intro i j t
    rw [BSM.offsetIn_eq, ← h]
    cases DIMap.find2 (BSM.offsetsOf mask).1.rmap i j with
    | none => simp
    | some s => simp
  have hfill : ∀ i j, (BSM.offsetsOf mask).1.isFilled i j = true ↔ (i, j) ∈ mask := by
    intro i j
    rw [BSM.offsetsOf_eq, (C272_double_map (BSM.maskSets mask) i j).1]
    unfold BSM.maskSets
    constructor
    · rintro ⟨v, hv⟩
      obtain ⟨p, hp, e⟩ := List.mem_map.1 hv
      have : p.1 ∈ mask := List.fst_mem_of_mem_zipIdx hp
      cases e
      exact this
    · intro hm
      obtain ⟨t, ht⟩ := List.mem_iff_getElem?.1 hm
      exact ⟨t, List.mem_map.2 ⟨((i, j), t), List.mk_mem_zipIdx_iff_getElem?.2 ht, rfl⟩⟩
  have hblk : ∀ i j b, (i, j, b) ∈ BSM.forEachBlock ⟨nb, mb, bn, bm, q, (BSM.offsetsOf mask).1⟩ →
      ∃ t, LastPlace mask i j t ∧ b = BSM.sliceOf q bn bm t := by
    intro i j b hb
    obtain ⟨e, he, ee⟩ := List.mem_map.1 hb
    obtain ⟨i', j', t⟩ := e
    cases ee
    exact ⟨t, (h _ _ _).1 ((DIMap.mem_forEach g.r).1 he), rfl⟩
  refine ⟨hfill, hoff, ?_, ?_, ?_⟩
  · intro i j b hb
    obtain ⟨t, ht, rfl⟩ := hblk i j b hb
    have htl := BSM.LastPlace.lt ht
    refine ⟨List.mem_of_getElem? ht.1, rfl, rfl, ?_, ?_, ?_⟩
    · intro a ha c hc a' ha' c' hc' e
      rw [BSM.slice_cell, BSM.slice_cell] at e
      exact (BSM.slice_inj ha hc ha' hc' (Nat.add_left_cancel e)).2
    · intro a ha c hc
      rw [BSM.slice_cell]
      have := BSM.slice_lt htl ha hc
      unfold allocZero
      rw [if_pos ⟨by omega, by dsimp only [BSM.sliceOf] at this; omega⟩]
    · intro a ha c hc
      rw [BSM.slice_cell]
      have := BSM.slice_lt htl ha hc
      omega
  · intro i j b hb i' j' b' hb' hne a ha c hc a' ha' c' hc' e
    obtain ⟨t, ht, rfl⟩ := hblk i j b hb
    obtain ⟨t', ht', rfl⟩ := hblk i' j' b' hb'
    rw [BSM.slice_cell, BSM.slice_cell] at e
    have := (BSM.slice_inj ha hc ha' hc' (Nat.add_left_cancel e)).1
    subst this
    have := ht.1.symm.trans ht'.1
    exact hne (Option.some.inj this)
  · intro c hc
    unfold allocZero
    rw [if_neg]
    omega

/-- The new matrix has the numbers of block rows and columns and the block sizes that were asked for: `block(i,j)` exists exactly at the pairs of the mask
below these numbers. -/
theorem C275_sizes [Zero α] (nb mb bn bm : Nat) (mask : List (Int × Int)) (q : Nat) (m : Buf α) :
    let x := (BSM.new nb mb bn bm mask q m).1
    x.nblocks = nb ∧ x.mblocks = mb ∧ x.blockn = bn ∧ x.blockm = bm ∧
    ∀ i j, (∃ b, x.block i j = .ok b) ↔ (i < nb ∧ j < mb ∧ (i, j) ∈ mask) := by
  obtain ⟨g, hl, h⟩ := BSM.offsetsOf_spec mask
  refine ⟨rfl, rfl, rfl, rfl, fun i j => ?_⟩
  have hoff := (C275_constructor nb mb bn bm mask q m).2.1 i j
  have hmem := (C275_constructor nb mb bn bm mask q m).1 i j
  have key : (∃ t, BSM.offsetIn (BSM.new nb mb bn bm mask q m).1.offsets i j = .ok t) ↔ (i, j) ∈ mask := by
    constructor
    · rintro ⟨t, ht⟩
      exact List.mem_of_getElem? ((hoff t).1 ht).1
    · intro hm
      have := hmem.2 hm
      rw [BSM.offsetIn_eq]
      unfold DIMap.isFilled at this
      unfold DIMap.find2
      cases e : OMap.find? i (BSM.new nb mb bn bm mask q m).1.offsets.rmap with
      | none => rw [e] at this; simp at this
      | some r =>
        rw [e] at this
        dsimp only at this ⊢
        cases e2 : OMap.find? j r with
        | none => rw [e2] at this; simp at this
        | some t => exact ⟨t, by simp only [Option.bind_some, e2]⟩
  by_cases h1 : i < nb
  · by_cases h2 : j < mb
    · rw [← key]
      unfold BSM.block BSM.blockIn
      simp only [BSM.value, BSM.new, h1, h2, decide_true, Res.assrt_true, Res.ok_bind, true_and]
      constructor
      · rintro ⟨b, hb⟩
        obtain ⟨t, ht, _⟩ := Res.bind_eq_ok.1 hb
        exact ⟨t, ht⟩
      · rintro ⟨t, ht⟩
        rw [ht]
        exact ⟨_, rfl⟩
    · simp [BSM.block, BSM.blockIn, BSM.value, BSM.new, h1, h2]
  · simp [BSM.block, BSM.blockIn, BSM.value, BSM.new, h1]

example : (BSM.new 2 3 2 2 [(1, 2), (0, 0), (1, 2)] 4 (fun _ => (none : Option Int))).1.forEachBlock =
    [(0, 0, ⟨8, 2, 2, 2, 1⟩), (1, 2, ⟨12, 2, 2, 2, 1⟩)] ∧ LastPlace [(1, 2), (0, 0), (1, 2)] 1 2 2 := by
  refine ⟨by decide, rfl, ?_⟩
  intro s hs
  rw [List.getElem?_eq_none (by simp only [List.length_cons, List.length_nil]; omega)]
  simp

/-! ## C276: `is_filled`, `offset` and `block` -/

/-- `offset(i,j)` and `block(i,j)`: the block set last, an exception if there is none or if the index is too large. -/
theorem C276_block (x : BSM) (l : List (Int × Int × Nat)) (hx : x.offsets = DIMap.run l) (i j : Int) :
    (∀ t, lastSet l i j = some t → BSM.offsetIn x.offsets i j = .ok t) ∧
    (lastSet l i j = none → BSM.offsetIn x.offsets i j = .throw) ∧
    (∀ t, lastSet l i j = some t → i < x.nblocks → j < x.mblocks →
      ∃ b, x.block i j = .ok b ∧ b.n0 = x.blockn ∧ b.n1 = x.blockm ∧
        ∀ a c, b.cell a c = x.mx + (x.blockn * x.blockm * t + (x.blockm * a + c))) ∧
    ((¬ i < x.nblocks ∨ ¬ j < x.mblocks ∨ lastSet l i j = none) → x.block i j = .throw) := by
  obtain ⟨g, h⟩ := DIMap.run_spec l
  rw [← hx] at h
  have e1 : ∀ t, lastSet l i j = some t → BSM.offsetIn x.offsets i j = .ok t := by
    intro t ht; rw [BSM.offsetIn_eq, h, ht]
  have e2 : lastSet l i j = none → BSM.offsetIn x.offsets i j = .throw := by
    intro ht; rw [BSM.offsetIn_eq, h, ht]
  refine ⟨e1, e2, ?_, ?_⟩
  · intro t ht hi hj
    refine ⟨BSM.sliceOf x.mx x.blockn x.blockm t, ?_, rfl, rfl, fun a c => BSM.slice_cell _ _ _ _ _ _⟩
    simp [BSM.block, BSM.blockIn, BSM.value, hi, hj, e1 t ht]
  · intro hc
    by_cases hi : i < x.nblocks
    · by_cases hj : j < x.mblocks
      · have := (hc.resolve_left (not_not.2 hi)).resolve_left (not_not.2 hj)
        simp [BSM.block, BSM.blockIn, BSM.value, hi, hj, e2 this]
      · simp [BSM.block, BSM.blockIn, BSM.value, hi, hj]
    · simp [BSM.block, BSM.blockIn, BSM.value, hi]

example : (BSM.mk 2 2 1 3 10 (DIMap.run [(0, 1, 5), (1, 0, 6)])).block 1 0 = .ok ⟨28, 1, 3, 3, 1⟩ ∧
    (BSM.mk 2 2 1 3 10 (DIMap.run [(0, 1, 5), (1, 0, 6)])).block 0 0 = .throw ∧
    (BSM.mk 2 2 1 3 10 (DIMap.run [(0, 1, 5), (5, 0, 6)])).block 5 0 = .throw := by decide

/-! ## C277: `apply_to` -/

/-- The memory holds the blocks `E` of the settings `l`. -/
def BSM.Blocks (x : BSM) (l : List (Int × Int × Nat)) (E : Nat → Nat → Nat → α) (m : Buf α) : Prop :=
  ∀ i j t, lastSet l i j = some t → ∀ a, a < x.blockn → ∀ c, c < x.blockm →
    m (x.mx + (x.blockn * x.blockm * t + (x.blockm * a + c))) = some (E t a c)

/-- All blocks are inside the matrix. -/
def BSM.Inside (x : BSM) (l : List (Int × Int × Nat)) : Prop :=
  ∀ i j t, lastSet l i j = some t → 0 ≤ i ∧ i < x.nblocks ∧ 0 ≤ j ∧ j < x.mblocks

/-- `r` has no cell in common with the blocks. -/
def BSM.Clear (x : BSM) (l : List (Int × Int × Nat)) (r : RV2) : Prop :=
  ∀ i j t, lastSet l i j = some t → ∀ a, a < x.blockn → ∀ c, c < x.blockm → ∀ k, k < r.n0 → ∀ n, n < r.n1 →
    r.cell k n ≠ x.mx + (x.blockn * x.blockm * t + (x.blockm * a + c))

theorem apart_from {r y : RV2} (h : r.Apart y) (i n : Nat) (hi : i + n ≤ y.n0) : r.Apart (y.from' i n) := by
  intro a ha b hb k hk l hl
  rw [RV2.from_cell]
  have hk' : k < n := hk
  exact h a ha b hb _ (by omega) l hl

theorem has_from {y : RV2} {m : Buf α} {Y : Nat → Nat → α} (h : y.Has m Y) (i n : Nat) (hi : i + n ≤ y.n0) :
    (y.from' i n).Has m fun a c => Y (i + a) c := by
  intro a ha b hb
  rw [RV2.from_cell]
  have ha' : a < n := ha
  exact h _ (by omega) b hb

theorem blocks_le {i n k : Nat} (h : i < n) : k * i + k ≤ n * k := by
  rw [← Nat.mul_succ, Nat.mul_comm n]
  exact Nat.mul_le_mul_left _ h

/-- `apply_to(r,y)` adds to `r` the product of the dense matrix with `y`. -/
theorem C277_apply [NonUnitalNonAssocSemiring α] (x : BSM) (l : List (Int × Int × Nat)) (hx : x.offsets = DIMap.run l)
    (hin : x.Inside l) (r y : RV2) (h0 : y.n0 = x.mblocks * x.blockm) (h1 : r.n0 = x.nblocks * x.blockn) (h2 : y.n1 = r.n1)
    (hr : r.Inj) (hry : r.Apart y) (hrx : x.Clear l r) (m : Buf α) (R Y : Nat → Nat → α) (E : Nat → Nat → Nat → α)
    (hR : r.Has m R) (hY : y.Has m Y) (hE : x.Blocks l E m) :
    ∃ m', x.applyTo r y m = .ok m' ∧ r.Becomes m m' fun a c =>
      R a c + ∑ b ∈ Finset.range (x.mblocks * x.blockm), dense (lastSet l) E x.blockn x.blockm a b * Y b c := by
  obtain ⟨g, h⟩ := DIMap.run_spec l
  rw [← hx] at g h
  have hmem : ∀ i j t, (i, j, t) ∈ x.offsets.forEach ↔ lastSet l i j = some t := fun i j t => by
    rw [DIMap.mem_forEach g.r, h]
  obtain ⟨m', k1, k2, k3⟩ := adds_run r
    (fun m e => x.applyBlock r y m (e.1, e.2.1, BSM.sliceOf x.mx x.blockn x.blockm e.2.2))
    (fun (e : Int × Int × Nat) a c => if e.1 = ((a / x.blockn : Nat) : Int) then
      ∑ k ∈ Finset.range x.blockm, E e.2.2 (a % x.blockn) k * Y (x.blockm * e.2.1.toNat + k) c else 0) m x.offsets.forEach
    (by
      rintro ⟨i, j, t⟩ he m1 R1 hm1
      have ht := (hmem i j t).1 he
      obtain ⟨i0, i1, j0, j1⟩ := hin i j t ht
      obtain ⟨i, rfl⟩ := Int.eq_ofNat_of_zero_le i0
      obtain ⟨j, rfl⟩ := Int.eq_ofNat_of_zero_le j0
      have i1 : i < x.nblocks := by exact_mod_cast i1
      have j1 : j < x.mblocks := by exact_mod_cast j1
      have hi : x.blockn * i + x.blockn ≤ r.n0 := h1 ▸ blocks_le i1
      have hj : x.blockm * j + x.blockm ≤ y.n0 := h0 ▸ blocks_le j1
      have hax : r.Apart (BSM.sliceOf x.mx x.blockn x.blockm t) := by
        intro a ha b hb k hk c hc
        rw [BSM.slice_cell]
        exact hrx _ _ t ht k hk c hc a ha b hb
      obtain ⟨m', e1, e2⟩ := rows_step r i x.blockn
        (by rcases Nat.eq_zero_or_pos x.blockn with c | c
            · right; rw [h1, c, Nat.mul_zero]
            · exact Or.inl c) hi hr (BSM.sliceOf x.mx x.blockn x.blockm t) (y.from' (x.blockm * j) x.blockm) rfl h2 rfl hax
        (apart_from hry _ _ hj) m1 R1 (E t) (fun a c => Y (x.blockm * j + a) c) hm1.1
        (by
          intro a ha c hc
          rw [hm1.2 _ fun k hk n hn e => hax k hk n hn a ha c hc e.symm, BSM.slice_cell]
          exact hE _ _ t ht a ha c hc)
        (has_from (Becomes.other hry hm1 hY) _ _ hj)
      refine ⟨m', ?_, ?_⟩
      · unfold BSM.applyBlock
        dsimp only
        rw [show ((i : Int) * x.blockn) = ((x.blockn * i : Nat) : Int) by push_cast; ring,
          show ((j : Int) * x.blockm) = ((x.blockm * j : Nat) : Int) by push_cast; ring,
          RV2.rowsAt_ok _ _ _ hi, RV2.rowsAt_ok _ _ _ hj]
        exact e1
      · convert e2 using 4
        rename_i a c
        have : ((i : Int) = ((a / x.blockn : Nat) : Int)) = (a / x.blockn = i) := by
          apply propext; constructor
          · intro e; exact_mod_cast e.symm
          · intro e; exact_mod_cast e.symm
        simp only [this, Int.toNat_natCast, BSM.sliceOf]) m R ⟨hR, fun _ _ => rfl⟩
  refine ⟨m', ?_, ?_, k3⟩
  · unfold BSM.applyTo BSM.forEachBlock
    simp only [h0, h1, h2, decide_true, Res.assrt_true, Res.ok_bind]
    rw [forM_map]
    exact k1
  · intro a ha c hc
    rw [k2 a ha c hc]
    dsimp only
    rw [blocks_dense (lastSet l) E x.blockn x.blockm x.mblocks a (fun b => Y b c) x.offsets.forEach
      ((DIMap.forEach_before g.r).imp Before.pos_ne) hmem]
    rintro ⟨i, j, t⟩ he
    have := hin i j t ((hmem i j t).1 he)
    exact ⟨this.2.2.1, this.2.2.2⟩


/-- Two rows of blocks `1 × 2`; the block at (0,1) is `(2 3)` and that at (1,0) is `(5 7)`; `y` is a column of four. -/
def exBSM : BSM := ⟨2, 2, 1, 2, 0, DIMap.run [(1, 0, 1), (0, 1, 0)]⟩

example : ∃ m', exBSM.applyTo (α := Int) ⟨8, 2, 1, 1, 1⟩ ⟨4, 4, 1, 1, 1⟩ (Buf.ofList [2, 3, 5, 7, 1, 10, 100, 1000, 4, 6]) = .ok m' ∧
    (m' 8, m' 9) = (some 3204, some 81) := ⟨_, rfl, by decide⟩

example : exBSM.Inside [(1, 0, 1), (0, 1, 0)] := by
  intro i j t h
  have : (i, j, t) ∈ [((1 : Int), (0 : Int), 1), (0, 1, 0)] := by
    unfold lastSet at h
    obtain ⟨e, h1, h2⟩ := Option.map_eq_some_iff.1 h
    have h3 : e.1 = i ∧ e.2.1 = j := by simpa using List.find?_some h1
    have h4 := List.mem_reverse.1 (List.mem_of_find?_eq_some h1)
    rw [← h3.1, ← h3.2, ← h2]
    exact h4
  simp only [List.mem_cons, List.not_mem_nil, or_false, Prod.mk.injEq] at this
  rcases this with ⟨rfl, rfl, rfl⟩ | ⟨rfl, rfl, rfl⟩ <;> decide

/-! ## C278: what `apply_to` refuses -/

/-- A step that never succeeds makes the loop fail. -/
theorem forM_not_ok {σ ι : Type _} (f : σ → ι → Res σ) (e : ι) (he : ∀ s s', f s e ≠ .ok s') : ∀ (l : List ι), e ∈ l →
    ∀ s s', Res.forM l s f ≠ .ok s'
  | a :: l, hm, s, s', h => by
    rw [Res.forM_cons] at h
    obtain ⟨s1, h1, h2⟩ := Res.bind_eq_ok.1 h
    rcases List.mem_cons.1 hm with c | c
    · subst c; exact he _ _ h1
    · exact forM_not_ok f e he l c _ _ h2

/-- `apply_to` throws if the sizes of `r` or `y` are wrong, and never returns normally if a block lies beyond the last row or
column of blocks. -/
theorem C278_refuses_partial [NonUnitalNonAssocSemiring α] (x : BSM) (l : List (Int × Int × Nat)) (hx : x.offsets = DIMap.run l)
    (r y : RV2) (m : Buf α) :
    ((y.n0 ≠ x.mblocks * x.blockm ∨ r.n0 ≠ x.nblocks * x.blockn ∨ y.n1 ≠ r.n1) → x.applyTo r y m = .throw) ∧
    (∀ i j t, lastSet l i j = some t → 0 < x.blockn → x.nblocks ≤ i → ∀ m', x.applyTo r y m ≠ .ok m') ∧
    (∀ i j t, lastSet l i j = some t → 0 < x.blockm → x.mblocks ≤ j → ∀ m', x.applyTo r y m ≠ .ok m') := by
  obtain ⟨g, h⟩ := DIMap.run_spec l
  rw [← hx] at g h
  have hmem : ∀ i j t, lastSet l i j = some t → (i, j, BSM.sliceOf x.mx x.blockn x.blockm t) ∈ x.forEachBlock := by
    intro i j t ht
    rw [← h, ← DIMap.mem_forEach g.r] at ht
    exact List.mem_map.2 ⟨_, ht, rfl⟩
  have hthrow : (y.n0 ≠ x.mblocks * x.blockm ∨ r.n0 ≠ x.nblocks * x.blockn ∨ y.n1 ≠ r.n1) → x.applyTo r y m = .throw := by
    intro hc
    unfold BSM.applyTo
    by_cases h0 : y.n0 = x.mblocks * x.blockm
    · by_cases h1 : r.n0 = x.nblocks * x.blockn
      · have h2 := (hc.resolve_left (not_not.2 h0)).resolve_left (not_not.2 h1)
        simp [h0, h1, h2]
      · simp [h0, h1]
    · simp [h0]
  have step : ∀ i j t, lastSet l i j = some t → (0 < x.blockn ∧ x.nblocks ≤ i ∨ 0 < x.blockm ∧ x.mblocks ≤ j) →
      ∀ m', x.applyTo r y m ≠ .ok m' := by
    intro i j t ht hc m' hm
    by_cases hs : y.n0 ≠ x.mblocks * x.blockm ∨ r.n0 ≠ x.nblocks * x.blockn ∨ y.n1 ≠ r.n1
    · rw [hthrow hs] at hm; cases hm
    · push Not at hs
      unfold BSM.applyTo at hm
      simp only [hs.1, hs.2.1, hs.2.2, decide_true, Res.assrt_true, Res.ok_bind] at hm
      refine forM_not_ok _ _ ?_ _ (hmem i j t ht) _ _ hm
      intro s s' e
      unfold BSM.applyBlock at e
      dsimp only at e
      obtain ⟨r', e1, e2⟩ := Res.bind_eq_ok.1 e
      obtain ⟨y', e3, e4⟩ := Res.bind_eq_ok.1 e2
      have big : ∀ (k : Int) (n b : Nat), 0 < b → (n : Int) ≤ k → ¬ k * b + b ≤ ((n * b : Nat) : Int) := by
        intro k n b hb hk hle
        have : (n : Int) * b ≤ k * b := Int.mul_le_mul_of_nonneg_right hk (by positivity)
        push_cast at hle
        omega
      rcases hc with hc | hc
      · rw [RV2.rowsAt_throw _ _ _ (by rw [hs.2.1]; exact big i _ _ hc.1 hc.2)] at e1
        cases e1
      · rw [RV2.rowsAt_throw _ _ _ (by rw [hs.1]; exact big j _ _ hc.1 hc.2)] at e3
        cases e3
  exact ⟨hthrow, fun i j t ht hb hi => step i j t ht (Or.inl ⟨hb, hi⟩), fun i j t ht hb hj => step i j t ht (Or.inr ⟨hb, hj⟩)⟩

example : (BSM.mk 2 2 1 1 0 (DIMap.run [(2, 0, 0)])).applyTo (α := Int) ⟨2, 2, 1, 1, 1⟩ ⟨4, 2, 1, 1, 1⟩
    (Buf.ofList [1, 2, 3, 4, 5, 6]) = .throw := rfl

/-- A block with a negative index is not refused: a mask with the pair (-1,0) gives a matrix whose `apply_to` changes memory
before `r` (here the block itself). -/
theorem C278_negative_fails : ∃ (x : BSM) (m' : Buf Int), x = (BSM.new 1 1 1 1 [(-1, 0)] 0 (fun _ => (none : Option Int))).1 ∧
    x.applyTo (α := Int) ⟨1, 1, 1, 1, 1⟩ ⟨2, 1, 1, 1, 1⟩ (Buf.ofList [2, 10, 5]) = .ok m' ∧
    (m' 0, m' 1) = (some 12, some 10) := ⟨_, _, rfl, rfl, by decide⟩

/-! ## C279: `apply_transp_to` -/

/-- `apply_transp_to(r,y)` adds to `r` the product of the transposed dense matrix with `y`. -/
theorem C279_apply_transp [NonUnitalNonAssocSemiring α] (x : BSM) (l : List (Int × Int × Nat)) (hx : x.offsets = DIMap.run l)
    (hin : x.Inside l) (r y : RV2) (h0 : y.n0 = x.nblocks * x.blockn) (h1 : r.n0 = x.mblocks * x.blockm) (h2 : y.n1 = r.n1)
    (hr : r.Inj) (hry : r.Apart y) (hrx : x.Clear l r) (m : Buf α) (R Y : Nat → Nat → α) (E : Nat → Nat → Nat → α)
    (hR : r.Has m R) (hY : y.Has m Y) (hE : x.Blocks l E m) :
    ∃ m', x.applyTranspTo r y m = .ok m' ∧ r.Becomes m m' fun b c =>
      R b c + ∑ a ∈ Finset.range (x.nblocks * x.blockn), dense (lastSet l) E x.blockn x.blockm a b * Y a c := by
  obtain ⟨g, h⟩ := DIMap.run_spec l
  rw [← hx] at g h
  have hmem : ∀ i j t, (i, j, t) ∈ x.offsets.forEach ↔ lastSet l i j = some t := fun i j t => by
    rw [DIMap.mem_forEach g.r, h]
  obtain ⟨m', k1, k2, k3⟩ := adds_run r
    (fun m e => x.applyTranspBlock r y m (e.1, e.2.1, BSM.sliceOf x.mx x.blockn x.blockm e.2.2))
    (fun (e : Int × Int × Nat) b c => if e.2.1 = ((b / x.blockm : Nat) : Int) then
      ∑ k ∈ Finset.range x.blockn, E e.2.2 k (b % x.blockm) * Y (x.blockn * e.1.toNat + k) c else 0) m x.offsets.forEach
    (by
      rintro ⟨i, j, t⟩ he m1 R1 hm1
      have ht := (hmem i j t).1 he
      obtain ⟨i0, i1, j0, j1⟩ := hin i j t ht
      obtain ⟨i, rfl⟩ := Int.eq_ofNat_of_zero_le i0
      obtain ⟨j, rfl⟩ := Int.eq_ofNat_of_zero_le j0
      have i1 : i < x.nblocks := by exact_mod_cast i1
      have j1 : j < x.mblocks := by exact_mod_cast j1
      have hi : x.blockn * i + x.blockn ≤ y.n0 := h0 ▸ blocks_le i1
      have hj : x.blockm * j + x.blockm ≤ r.n0 := h1 ▸ blocks_le j1
      have tc : ∀ a c, (BSM.sliceOf x.mx x.blockn x.blockm t).transp.cell a c = (BSM.sliceOf x.mx x.blockn x.blockm t).cell c a := by
        intro a c
        simp [RV2.transp, RV2.cell]; omega
      have hax : r.Apart (BSM.sliceOf x.mx x.blockn x.blockm t).transp := by
        intro a ha b hb k hk c hc
        rw [tc, BSM.slice_cell]
        exact hrx _ _ t ht c hc k hk a ha b hb
      obtain ⟨m', e1, e2⟩ := rows_step r j x.blockm
        (by rcases Nat.eq_zero_or_pos x.blockm with c | c
            · right; rw [h1, c, Nat.mul_zero]
            · exact Or.inl c) hj hr (BSM.sliceOf x.mx x.blockn x.blockm t).transp (y.from' (x.blockn * i) x.blockn) rfl h2 rfl hax
        (apart_from hry _ _ hi) m1 R1 (fun a c => E t c a) (fun a c => Y (x.blockn * i + a) c) hm1.1
        (by
          intro a ha c hc
          rw [hm1.2 _ fun k hk n hn e => hax k hk n hn a ha c hc e.symm, tc, BSM.slice_cell]
          exact hE _ _ t ht c hc a ha)
        (has_from (Becomes.other hry hm1 hY) _ _ hi)
      refine ⟨m', ?_, ?_⟩
      · unfold BSM.applyTranspBlock
        dsimp only
        rw [show ((i : Int) * x.blockn) = ((x.blockn * i : Nat) : Int) by push_cast; ring,
          show ((j : Int) * x.blockm) = ((x.blockm * j : Nat) : Int) by push_cast; ring,
          RV2.rowsAt_ok _ _ _ hi, RV2.rowsAt_ok _ _ _ hj]
        exact e1
      · convert e2 using 4
        rename_i a c
        have : ((j : Int) = ((a / x.blockm : Nat) : Int)) = (a / x.blockm = j) := by
          apply propext; constructor
          · intro e; exact_mod_cast e.symm
          · intro e; exact_mod_cast e.symm
        simp only [this, Int.toNat_natCast, BSM.sliceOf, RV2.transp]) m R ⟨hR, fun _ _ => rfl⟩
  refine ⟨m', ?_, ?_, k3⟩
  · unfold BSM.applyTranspTo BSM.forEachBlock
    simp only [h0, h1, h2, decide_true, Res.assrt_true, Res.ok_bind]
    rw [forM_map]
    exact k1
  · intro b hb c hc
    rw [k2 b hb c hc]
    dsimp only
    have key := blocks_dense (fun i j => lastSet l j i) (fun t p q => E t q p) x.blockm x.blockn x.nblocks b (fun a => Y a c)
      (x.offsets.forEach.map fun e => (e.2.1, e.1, e.2.2))
      (by
        rw [List.pairwise_map]
        exact (DIMap.forEach_before g.r).imp (by
          rintro a b hab ⟨h1, h2⟩
          exact Before.pos_ne hab ⟨h2, h1⟩))
      (by
        intro i j t
        rw [← hmem j i t, List.mem_map]
        constructor
        · rintro ⟨e, he, ee⟩; cases ee; exact he
        · intro he; exact ⟨_, he, rfl⟩)
      (by
        intro e he'
        obtain ⟨⟨i, j, t⟩, he, rfl⟩ := List.mem_map.1 he'
        have := hin i j t ((hmem i j t).1 he)
        exact ⟨this.1, this.2.1⟩)
    rw [List.map_map] at key
    exact congrArg (fun s => some (R b c + s)) key

/-- Other sizes are refused. -/
theorem C279_refuses [NonUnitalNonAssocSemiring α] (x : BSM) (r y : RV2) (m : Buf α)
    (h : y.n0 ≠ x.nblocks * x.blockn ∨ r.n0 ≠ x.mblocks * x.blockm ∨ y.n1 ≠ r.n1) : x.applyTranspTo r y m = .throw := by
  unfold BSM.applyTranspTo
  by_cases h1 : y.n0 = x.nblocks * x.blockn
  · by_cases h2 : r.n0 = x.mblocks * x.blockm
    · have h3 : y.n1 ≠ r.n1 := by tauto
      simp [h1, h2, h3, Res.assrt]
    · simp [h1, h2, Res.assrt]
  · simp [h1, Res.assrt]

example : ∃ m', exBSM.applyTranspTo (α := Int) ⟨6, 4, 1, 1, 1⟩ ⟨4, 2, 1, 1, 1⟩ (Buf.ofList [2, 3, 5, 7, 10, 100, 0, 0, 0, 1]) = .ok m' ∧
    (m' 6, m' 7, m' 8, m' 9) = (some 500, some 700, some 20, some 31) := ⟨_, rfl, by decide⟩

/-! ## C280: `operator*` with a tensor -/

/-- `operator*(y)` returns a new matrix holding the product of the dense matrix with `y`; a wrong size is refused. -/
theorem C280_mul_tensor [NonUnitalNonAssocSemiring α] (x : BSM) (l : List (Int × Int × Nat)) (hx : x.offsets = DIMap.run l)
    (hin : x.Inside l) (y : RV2) (m : Buf α) (Y : Nat → Nat → α) (E : Nat → Nat → Nat → α) (hY : y.Has m Y) (hE : x.Blocks l E m)
    (q : Nat) (hq : ∀ c, q ≤ c → c < q + x.nblocks * x.blockn * y.n1 → m c = none) :
    (y.n0 ≠ x.mblocks * x.blockm → x.mulTensor y q m = .throw) ∧
    (y.n0 = x.mblocks * x.blockm → ∃ r m', x.mulTensor y q m = .ok (r, m') ∧ r.n0 = x.nblocks * x.blockn ∧ r.n1 = y.n1 ∧
      r.Inj ∧ (∀ a, a < r.n0 → ∀ c, c < r.n1 → m (r.cell a c) = none) ∧
      r.Becomes m m' fun a c =>
        ∑ b ∈ Finset.range (x.mblocks * x.blockm), dense (lastSet l) E x.blockn x.blockm a b * Y b c) := by
  constructor
  · intro h0
    simp [BSM.mulTensor, h0]
  · intro h0
    have fc : ∀ a c, (freshRows q (x.nblocks * x.blockn) y.n1).cell a c = q + (y.n1 * a + c) := by
      intro a c; simp [freshRows, RV2.cell, Nat.add_assoc]
    have hfresh : ∀ a, a < x.nblocks * x.blockn → ∀ c, c < y.n1 →
        m ((freshRows q (x.nblocks * x.blockn) y.n1).cell a c) = none := by
      intro a ha c hc
      rw [fc]
      have := RV2.flat_lt ha hc
      exact hq _ (by omega) (by omega)
    have keep : ∀ z v, m z = some v → allocZero m q (x.nblocks * x.blockn * y.n1) z = some v := by
      intro z v hz
      unfold allocZero
      rw [if_neg]
      · exact hz
      · rintro ⟨z1, z2⟩
        rw [hq z z1 z2] at hz
        cases hz
    have hinj : (freshRows q (x.nblocks * x.blockn) y.n1).Inj := by
      intro a ha b hb k hk n hn e
      rw [fc, fc] at e
      have e := Nat.add_left_cancel e
      have hb' : b < y.n1 := hb
      have hn' : n < y.n1 := hn
      exact ⟨by rw [← RV2.flat_div (i := a) hb', e, RV2.flat_div hn'], by rw [← RV2.flat_mod (i := a) hb', e, RV2.flat_mod hn']⟩
    obtain ⟨m', k1, k2, k3⟩ := C277_apply x l hx hin (freshRows q (x.nblocks * x.blockn) y.n1) y h0 rfl rfl hinj
      (by
        intro a ha b hb k hk n hn e
        have := hfresh a ha b hb
        rw [e, hY k hk n hn] at this
        cases this)
      (by
        intro i j t ht a ha c hc k hk n hn e
        have := hfresh k hk n hn
        rw [e, hE i j t ht a ha c hc] at this
        cases this)
      (allocZero m q (x.nblocks * x.blockn * y.n1)) (fun _ _ => 0) Y E
      (by
        intro a ha c hc
        rw [fc]
        have := RV2.flat_lt (n1 := y.n1) ha hc
        unfold allocZero
        rw [if_pos ⟨by omega, by dsimp only [freshRows] at this; omega⟩])
      (fun k hk n hn => keep _ _ (hY k hk n hn))
      (fun i j t ht a ha c hc => keep _ _ (hE i j t ht a ha c hc))
    refine ⟨freshRows q (x.nblocks * x.blockn) y.n1, m', ?_, rfl, rfl, hinj, hfresh, ?_, ?_⟩
    · unfold BSM.mulTensor
      simp only [h0, decide_true, Res.assrt_true, Res.ok_bind, k1]
    · intro a ha c hc
      rw [k2 a ha c hc]
      dsimp only
      rw [zero_add]
    · intro z hz
      rw [k3 z hz]
      unfold allocZero
      rw [if_neg]
      rintro ⟨z1, z2⟩
      obtain ⟨d, rfl⟩ := Nat.exists_eq_add_of_le z1
      have hd : d < x.nblocks * x.blockn * y.n1 := by omega
      refine hz (d / y.n1) (RV2.div_lt_of_flat hd) (d % y.n1) (RV2.mod_lt_of_flat hd) ?_
      rw [fc, Nat.div_add_mod]

example : ∃ m', exBSM.mulTensor (α := Int) ⟨4, 4, 1, 1, 1⟩ 8 (Buf.ofList [2, 3, 5, 7, 1, 10, 100, 1000]) = .ok (⟨8, 2, 1, 1, 1⟩, m') ∧
    (m' 8, m' 9) = (some 3200, some 75) := ⟨_, rfl, by decide⟩

end Cnine
