import Verif.Lemmas.SparseTV

/-!
# Properties of tensors with two sparse axes (sparse/SparseTensorView.hpp)
-/

namespace Cnine

open BlockSpec SparseSpec SparseTV

variable {α : Type}

theorem sparseTV_new [Zero α] {L : RV2} {mi : Buf Int} {l : List (Int × Int)} (hL : Pairs L mi l) (d0 d1 : Nat) (dd : List Nat) (split : Nat)
    (hs : split < dd.length) (q : Nat) (m : Buf α) :
    ∃ x, SparseTV.new (d0 :: d1 :: dd) split L mi q m = .ok (x, allocZero m q (l.length * dd.prod)) ∧ x.ddims = dd ∧ x.nfilled = l.length ∧
      x.offsets = (BSM.offsetsOf l).1 ∧ x.mx.off = q ∧ x.mx.dims = l.length :: dd ∧ x.mx.strides = x.sstride :: x.dstrides ∧
      ∀ t ix, ix.length = dd.length → t * x.sstride + dot x.dstrides ix = place dd split l.length t ix := by
  have hn := (BSM.offsetsOf_spec l).2.1
  have hix : ∀ t (ix : List Nat), ix.length = dd.length → ∃ s d, (splitFrom ((split : Nat) : Int) l.length 0 dd)[split]? = some s ∧ dd[split]? = some d ∧
      t * (s * d) + dot (splitFrom ((split : Nat) : Int) l.length 0 dd) ix = place dd split l.length t ix := by
    intro t ix h
    obtain ⟨s, d, h1, h2, h3⟩ := dot_place l.length t split dd ix 0 hs h
    rw [show ((0 : Nat) : Int) + ((split : Nat) : Int) = ((split : Nat) : Int) by simp] at h1 h3
    exact ⟨s, d, h1, h2, h3⟩
  obtain ⟨s, d, g1, g2, _⟩ := hix 0 dd rfl
  refine ⟨⟨d0 :: d1 :: dd, dd, splitFrom split l.length 0 dd, s * d, (BSM.offsetsOf l).1, l.length,
    ⟨q, l.length :: dd, (s * d) :: splitFrom split l.length 0 dd⟩⟩, ?_, rfl, rfl, rfl, rfl, rfl, rfl, ?_⟩
  · unfold SparseTV.new
    rw [if_neg (by rw [hL.2.1]; simp), indexer_ok hL, Res.ok_bind]
    have hc : gvChunk (d0 :: d1 :: dd) 2 (-1) = .ok dd := by
      unfold gvChunk
      have e1 : ((d0 :: d1 :: dd).length : Int) - 2 = (dd.length : Int) := by simp [List.length_cons]; omega
      simp only [show ¬ ((2 : Int) < 0) by omega, if_false, if_true, e1]
      rw [if_neg (by omega), if_neg (by simp; omega)]
      simp
    rw [hc, Res.ok_bind]
    unfold splitStrides
    rw [show decide (dd.length > 0) = true from decide_eq_true (by omega), Res.assrt_true]
    simp only [Res.ok_bind, hn]
    unfold atInt
    rw [if_neg (by omega), Int.toNat_natCast, if_neg (by omega)]
    simp [Res.get, g1, g2]
  · intro t ix h
    obtain ⟨s', d', h1, h2, h3⟩ := hix t ix h
    rw [g1] at h1
    rw [g2] at h2
    cases h1
    cases h2
    exact h3

theorem offsets_get {l : List (Int × Int)} {i j : Int} {t : Nat} (h : LastPlace l i j t) : (BSM.offsetsOf l).1.get i j = t := by
  rw [DIMap.get_eq, ((BSM.offsetsOf_spec l).2.2 i j t).2 h]
  rfl

theorem lastPlace_lt {l : List (Int × Int)} {i j : Int} {t : Nat} (h : LastPlace l i j t) : t < l.length := by
  by_contra c
  have := h.1
  rw [List.getElem?_eq_none (by omega)] at this
  cases this

theorem exists_lastPlace {l : List (Int × Int)} {i j : Int} (h : (i, j) ∈ l) : ∃ t, LastPlace l i j t := by
  induction l using List.reverseRecOn with
  | nil => cases h
  | append_singleton l p ih =>
    by_cases c : p = (i, j)
    · refine ⟨l.length, by simp [c], ?_⟩
      intro s hs
      rw [List.getElem?_eq_none (by simp; omega)]
      simp
    · have : (i, j) ∈ l := by
        rcases List.mem_append.mp h with h | h
        · exact h
        · exact absurd (List.mem_singleton.mp h).symm c
      obtain ⟨t, h1, h2⟩ := ih this
      have ht : t < l.length := lastPlace_lt ⟨h1, h2⟩
      refine ⟨t, by rw [List.getElem?_append_left ht]; exact h1, ?_⟩
      intro s hs
      by_cases d : s < l.length
      · rw [List.getElem?_append_left d]; exact h2 s hs
      · by_cases e : s = l.length
        · subst e
          simp [c]
        · rw [List.getElem?_eq_none (by simp; omega)]
          simp

/-! ## C291: the blocks of a new tensor -/

/-- **C291.** A tensor made from a list of pairs, for any place of the sparse axis among the dense ones: block `(i,j)` has the dense sizes, and its
entry `ix` lies where row-major order puts it when the number of the pair in the list (the last one, if the pair is repeated) is inserted
in `ix` at that place; it is a zero of the new memory, and nothing else changes. -/
theorem C291_block [Zero α] (L : RV2) (mi : Buf Int) (l : List (Int × Int)) (hL : Pairs L mi l) (d0 d1 : Nat) (dd : List Nat) (split : Nat)
    (hs : split < dd.length) (q : Nat) (m : Buf α) :
    ∃ x m', SparseTV.new (d0 :: d1 :: dd) split L mi q m = .ok (x, m') ∧
      (∀ i j t, LastPlace l i j t → blockIx x [i, j] = .ok (block2 x i j) ∧ (block2 x i j).dims = dd ∧
        ∀ ix, InRange ix dd → (block2 x i j).cell ix = q + place dd split l.length t ix ∧ place dd split l.length t ix < l.length * dd.prod ∧
          m' ((block2 x i j).cell ix) = some 0) ∧
      ∀ c, (c < q ∨ q + l.length * dd.prod ≤ c) → m' c = m c := by
  obtain ⟨x, e, h1, _, h3, h4, _, _, h7⟩ := sparseTV_new hL d0 d1 dd split hs q m
  refine ⟨x, _, e, ?_, ?_⟩
  · intro i j t ht
    refine ⟨rfl, h1, ?_⟩
    intro ix hix
    have hc : (block2 x i j).cell ix = q + place dd split l.length t ix := by
      show x.mx.off + x.offsets.get i j * x.sstride + dot x.dstrides ix = _
      rw [h4, h3, offsets_get ht, Nat.add_assoc, h7 t ix hix.length]
    have hlt := place_lt (le_of_lt hs) (lastPlace_lt ht) hix
    refine ⟨hc, hlt, ?_⟩
    rw [hc]
    unfold allocZero
    rw [if_pos ⟨Nat.le_add_right _ _, Nat.add_lt_add_left hlt q⟩]
  · intro c hc
    unfold allocZero
    rw [if_neg (by omega)]

/-- Two pairs, dense sizes 2×3, the sparse axis between them: rows of the two blocks alternate. -/
example : ∃ x m', SparseTV.new (α := Int) [9, 9, 2, 3] 1 ⟨0, 2, 2, 2, 1⟩ (Buf.ofList [4, 7, 5, 0]) 100 (fun _ => none) = .ok (x, m') ∧
    (block2 x 5 0).cell [1, 2] = 100 + 11 ∧ (block2 x 4 7).cell [1, 2] = 100 + 8 ∧ (block2 x 5 0).cell [0, 2] = 100 + 5 ∧
    place [2, 3] 1 2 1 [1, 2] = 11 := ⟨_, _, rfl, by decide, by decide, by decide, by decide⟩

/-! ## C292: the blocks tile the memory -/

/-- **C292.** Different entries, and entries of different blocks, lie in different cells; if no pair is repeated, the blocks fill the whole memory of
the tensor. -/
theorem C292_tiles [Zero α] (L : RV2) (mi : Buf Int) (l : List (Int × Int)) (hL : Pairs L mi l) (d0 d1 : Nat) (dd : List Nat) (split : Nat)
    (hs : split < dd.length) (q : Nat) (m : Buf α) :
    ∃ x m', SparseTV.new (d0 :: d1 :: dd) split L mi q m = .ok (x, m') ∧
      (∀ i j i' j' ix jx, (i, j) ∈ l → (i', j') ∈ l → InRange ix dd → InRange jx dd →
        (block2 x i j).cell ix = (block2 x i' j').cell jx → (i, j) = (i', j') ∧ ix = jx) ∧
      (l.Nodup → ∀ c, c < l.length * dd.prod → ∃ i j ix, (i, j) ∈ l ∧ InRange ix dd ∧ (block2 x i j).cell ix = q + c) := by
  obtain ⟨x, m', e, h1, _⟩ := C291_block L mi l hL d0 d1 dd split hs q m
  refine ⟨x, m', e, ?_, ?_⟩
  · intro i j i' j' ix jx hm hm' hix hjx he
    obtain ⟨t, ht⟩ := exists_lastPlace hm
    obtain ⟨t', ht'⟩ := exists_lastPlace hm'
    rw [((h1 i j t ht).2.2 ix hix).1, ((h1 i' j' t' ht').2.2 jx hjx).1] at he
    obtain ⟨g1, g2⟩ := place_inj (le_of_lt hs) (lastPlace_lt ht) (lastPlace_lt ht') hix hjx (Nat.add_left_cancel he)
    subst g1
    have := ht.1
    rw [ht'.1] at this
    exact ⟨(Option.some.inj this).symm, g2⟩
  · intro hn c hc
    obtain ⟨t, ix, ht, hix, hp⟩ := place_surj (c := split) (le_of_lt hs) hc
    have et : l[t]? = some l[t] := List.getElem?_eq_getElem ht
    have hlast : LastPlace l l[t].1 l[t].2 t := by
      refine ⟨et, ?_⟩
      intro s hs he
      have hs' : s < l.length := by
        by_contra c
        rw [List.getElem?_eq_none (by omega)] at he
        cases he
      rw [List.getElem?_eq_getElem hs'] at he
      have := (List.nodup_iff_injective_get.mp hn) (a₁ := ⟨s, hs'⟩) (a₂ := ⟨t, ht⟩) (Option.some.inj he)
      have := Fin.mk.inj this
      omega
    refine ⟨l[t].1, l[t].2, ix, List.getElem_mem ht, hix, ?_⟩
    rw [((h1 _ _ t hlast).2.2 ix hix).1, hp]

example : ([(4, 7), (5, 0)] : List (Int × Int)).Nodup ∧ Pairs ⟨0, 2, 2, 2, 1⟩ (Buf.ofList [4, 7, 5, 0]) [(4, 7), (5, 0)] := by
  refine ⟨by decide, rfl, rfl, ?_⟩
  intro t p h
  match t with
  | 0 => cases h; exact ⟨rfl, rfl⟩
  | 1 => cases h; exact ⟨rfl, rfl⟩
  | _ + 2 => cases h

/-! ## C293: all blocks, with a multi-index -/

/-- **C293.** `for_each_dense_block` with a multi-index is called exactly once for each listed pair, in the order of the pairs, with the block of
the pair. -/
theorem C293_for_each [Zero α] (L : RV2) (mi : Buf Int) (l : List (Int × Int)) (hL : Pairs L mi l) (d0 d1 : Nat) (dd : List Nat) (split : Nat)
    (hs : split < dd.length) (q : Nat) (m : Buf α) :
    ∃ x m' r, SparseTV.new (d0 :: d1 :: dd) split L mi q m = .ok (x, m') ∧ forEachIx x = .ok r ∧
      (∀ ix v, (ix, v) ∈ r ↔ ∃ i j, (i, j) ∈ l ∧ ix = [i, j] ∧ v = block2 x i j) ∧
      r.Pairwise (fun a b => a.1 < b.1) := by
  obtain ⟨x, e, _, _, h3, _⟩ := sparseTV_new hL d0 d1 dd split hs q m
  have key : ∀ (k : List (Int × Int × Nat)) (s : List (List Int × View)), (Res.forM k s fun l e => do
      let v ← blockIx x [e.1, e.2.1]
      .ok (l ++ [([e.1, e.2.1], v)])) = Res.ok (s ++ k.map fun e => ([e.1, e.2.1], block2 x e.1 e.2.1)) := by
    intro k
    induction k with
    | nil => intro s; simp
    | cons a k ih =>
      intro s
      rw [Res.forM_cons]
      show Res.forM k (s ++ [([a.1, a.2.1], block2 x a.1 a.2.1)]) _ = _
      rw [ih]
      simp
  obtain ⟨g, _, hl⟩ := BSM.offsetsOf_spec l
  refine ⟨x, _, _, e, (by unfold forEachIx; exact key _ _), ?_, ?_⟩
  · intro ix v
    rw [List.nil_append, h3]
    constructor
    · intro h
      obtain ⟨a, ha, he⟩ := List.mem_map.mp h
      obtain ⟨i, j, t⟩ := a
      have := (hl i j t).1 ((DIMap.mem_forEach g.r).1 ha)
      have hm : (i, j) ∈ l := List.mem_of_getElem? this.1
      cases he
      exact ⟨i, j, hm, rfl, rfl⟩
    · rintro ⟨i, j, hm, rfl, rfl⟩
      obtain ⟨t, ht⟩ := exists_lastPlace hm
      exact List.mem_map.mpr ⟨(i, j, t), (DIMap.mem_forEach g.r).2 ((hl i j t).2 ht), rfl⟩
  · rw [List.nil_append, h3, List.pairwise_map]
    refine (DIMap.forEach_before g.r).imp ?_
    intro a b h
    rcases h with h | ⟨h, h'⟩
    · exact List.Lex.rel h
    · rw [h]
      exact List.Lex.cons (List.Lex.rel h')

example : ∃ x m' r, SparseTV.new (α := Int) [9, 9, 2] 0 ⟨0, 2, 2, 2, 1⟩ (Buf.ofList [5, 7, 4, 0]) 100 (fun _ => none) = .ok (x, m') ∧
    forEachIx x = .ok r ∧ r = [([4, 0], ⟨102, [2], [1]⟩), ([5, 7], ⟨100, [2], [1]⟩)] := ⟨_, _, _, rfl, rfl, by decide⟩

/-! ## C294: all blocks, with two indices -/

/-- **C294 (the full claim is false).** `for_each_dense_block` with two indices is called for each listed pair: it is never called. -/
theorem C294_for_each_two_fails : ∃ (x : SparseTV.Tensor) (m' : Buf Int),
    SparseTV.new [9, 9, 2] 0 ⟨0, 2, 2, 2, 1⟩ (Buf.ofList [5, 7, 4, 0]) 100 (fun _ => none) = .ok (x, m') ∧
    x.offsets.isFilled 5 7 = true ∧ ∀ v, (5, 7, v) ∉ forEach2 x := ⟨_, _, rfl, by decide, by intro v h; cases h⟩

/-! ## C295: pairs that are not there -/

/-- **C295 (the full claim is false).** The block of a pair that is not listed is refused or has no cell in common with the blocks of listed pairs: it is
the first block.  The same is so for one and for three indices. -/
theorem C295_absent_fails : ∃ (x : SparseTV.Tensor) (m' : Buf Int),
    SparseTV.new [9, 9, 2] 0 ⟨0, 2, 2, 2, 1⟩ (Buf.ofList [5, 7, 4, 0]) 100 (fun _ => none) = .ok (x, m') ∧
    x.offsets.isFilled 1 1 = false ∧ blockIx x [1, 1] = .ok (block2 x 5 7) ∧ block1 x 3 = block2 x 5 7 ∧ block3 x 4 0 0 = block2 x 5 7 :=
  ⟨_, _, rfl, by decide, rfl, rfl, rfl⟩

/-- **C295 (partial).** Multi-indices that are not pairs are refused.  Missing: pairs that are not listed. -/
theorem C295_absent_partial (x : SparseTV.Tensor) (ix : List Int) (h : ix.length ≠ 2) : blockIx x ix = .throw := by
  match ix, h with
  | [], _ => rfl
  | [_], _ => rfl
  | [_, _], h => exact absurd rfl h
  | _ :: _ :: _ :: _, _ => rfl

example : ([1, 2, 3] : List Int).length ≠ 2 := by decide

/-! ## C296: what the constructor refuses -/

/-- **C296 (the full claim is false).** Pairs outside the first two sizes, and places of the sparse axis behind the dense axes, and lists whose
rows are not pairs are refused: the first are accepted, the others are undefined behaviour. -/
theorem C296_constructor_fails :
    (∃ (x : SparseTV.Tensor) (m' : Buf Int), SparseTV.new [3, 3, 2] 0 ⟨0, 1, 2, 2, 1⟩ (Buf.ofList [3, -1]) 100 (fun _ => none) = .ok (x, m') ∧
      x.offsets.isFilled 3 (-1) = true) ∧
    SparseTV.new [3, 3, 2] 1 ⟨0, 1, 2, 2, 1⟩ (Buf.ofList [2, 1]) 100 (fun _ => (none : Option Int)) = .ub ∧
    ∀ (dims : List Nat) (split : Int) (L : RV2) (mi : Buf Int) (q : Nat) (m : Buf Int), L.n1 ≠ 2 → SparseTV.new dims split L mi q m = .ub :=
  ⟨⟨_, _, rfl, by decide⟩, rfl, fun _ _ _ _ _ _ h => if_pos h⟩

/-- **C296 (partial).** Tensors without dense axes are refused.  Missing: the indices of the pairs, the place of the sparse axis, lists whose rows are
not pairs. -/
theorem C296_constructor_partial [Zero α] (L : RV2) (mi : Buf Int) (l : List (Int × Int)) (hL : Pairs L mi l) (dims : List Nat) (hd : dims.length ≤ 2)
    (split : Int) (q : Nat) (m : Buf α) : SparseTV.new dims split L mi q m = .throw := by
  unfold SparseTV.new
  rw [if_neg (by rw [hL.2.1]; simp), indexer_ok hL, Res.ok_bind]
  match dims, hd with
  | [], _ => rfl
  | [_], _ => rfl
  | [_, _], _ => rfl

example : SparseTV.new (α := Int) [3, 3] 0 ⟨0, 1, 2, 2, 1⟩ (Buf.ofList [2, 1]) 100 (fun _ => none) = .throw := rfl

end Cnine
