import Verif.Props.BlockSparse

/-!
# The product of two block sparse matrices

C281: `operator*` of matrices/BlockCsparseMatrix.hpp reads the sizes of its result before they are given a value; if they happen
to be large enough the blocks are those of the product.
-/

namespace Cnine

open BlockSpec

variable {α : Type}

namespace BSM

/-- The pairs for which the product gets a block. -/
def pairs (x y : BSM) : List (Int × Int) :=
  x.offsets.rmap.flatMap fun p1 => (y.offsets.cmap.filter fun p2 => found p1 p2).map fun p2 => (p1.1, p2.1)

theorem inner_fold (p1 : Int × OMap Int Nat) : ∀ (cm : OMap Int (OMap Int Nat)) (s : DIMap Nat × Nat),
    cm.foldl (fun s p2 => if found p1 p2 then (s.1.set p1.1 p2.1 s.2, s.2 + 1) else s) s =
      ((cm.filter fun p2 => found p1 p2).map fun p2 => (p1.1, p2.1)).foldl (fun s p => (s.1.set p.1 p.2 s.2, s.2 + 1)) s
  | [], _ => rfl
  | p2 :: cm, s => by
    rw [List.foldl_cons, inner_fold p1 cm]
    by_cases c : found p1 p2
    · simp [c]
    · simp [c]

theorem mulOffsets_eq (x y : BSM) : mulOffsets x y = offsetsOf (pairs x y) := by
  unfold mulOffsets offsetsOf pairs
  generalize (DIMap.empty, 0) = s
  induction x.offsets.rmap generalizing s with
  | nil => rfl
  | cons p1 rm ih => rw [List.foldl_cons, ih, List.flatMap_cons, List.foldl_append, inner_fold]

theorem found_iff {p1 p2 : Int × OMap Int Nat} : found p1 p2 = true ↔ ∃ q ∈ p1.2, (OMap.find? q.1 p2.2).isSome := by
  simp [found]

/-- `operator*` reads an indeterminate value as soon as a block of the product is not empty. -/
theorem forM_ub {σ ι : Type _} (f : σ → ι → Res σ) (e : ι) : ∀ (l : List ι), e ∈ l → (∀ s, f s e = .ub) →
    (∀ a ∈ l, ∀ s, f s a = .ub ∨ f s a = .ok s) → ∀ s, Res.forM l s f = .ub
  | a :: l, hm, he, ha, s => by
    rw [Res.forM_cons]
    rcases ha a (by simp) s with c | c
    · rw [c]; rfl
    · rw [c, Res.ok_bind]
      rcases List.mem_cons.1 hm with d | d
      · subst d; rw [he] at c; cases c
      · exact forM_ub f e l d he (fun a h => ha a (List.mem_cons_of_mem _ h)) s

end BSM

/-- The full claim is false: whenever a block of `x` meets a block of `y`, the product of the matrices is undefined behaviour. -/
theorem C281_block_product_fails [NonUnitalNonAssocSemiring α] (x y : BSM) (l l' : List (Int × Int × Nat))
    (hx : x.offsets = DIMap.run l) (hy : y.offsets = DIMap.run l') (i j k : Int) (s t : Nat) (h1 : lastSet l i j = some s)
    (h2 : lastSet l' j k = some t) (q : Nat) (m : Buf α) : x.mul y q m = .ub := by
  obtain ⟨g, h⟩ := DIMap.run_spec l
  obtain ⟨g', h'⟩ := DIMap.run_spec l'
  rw [← hx] at g h
  rw [← hy] at g' h'
  rw [← h] at h1
  rw [← h', ← g'.eq] at h2
  obtain ⟨r, r1, r2⟩ := Option.bind_eq_some_iff.1 h1
  obtain ⟨c, c1, c2⟩ := Option.bind_eq_some_iff.1 h2
  have dich : ∀ (d : DIMap Nat) (p1 p2 : Int × OMap Int Nat) (q1 : Int × Nat) (m : Buf α),
      BSM.mulStep none none x y d q p1 p2 m q1 = .ub ∨ BSM.mulStep none none x y d q p1 p2 m q1 = .ok m := by
    intro d p1 p2 q1 m
    unfold BSM.mulStep
    by_cases hc : (OMap.find? q1.1 p2.2).isSome = true
    · rw [if_pos hc]; left; rfl
    · rw [if_neg hc]; right; rfl
  have forM_dich : ∀ {ι : Type} (f : Buf α → ι → Res (Buf α)), (∀ m a, f m a = .ub ∨ f m a = .ok m) → ∀ (l : List ι) (m : Buf α),
      Res.forM l m f = .ub ∨ Res.forM l m f = .ok m := by
    intro ι f hf l
    induction l with
    | nil => intro m; right; rfl
    | cons a l ih =>
      intro m
      rw [Res.forM_cons]
      rcases hf m a with e | e
      · rw [e]; left; rfl
      · rw [e, Res.ok_bind]; exact ih m
  unfold BSM.mul BSM.mulWith
  dsimp only
  rw [BSM.forM_ub _ (i, r) _ (OMap.mem_of_find? r1)]
  · rfl
  · intro m1
    apply BSM.forM_ub _ (k, c) _ (OMap.mem_of_find? c1)
    · intro m2
      apply BSM.forM_ub _ (j, s) _ (OMap.mem_of_find? r2)
      · intro m3
        unfold BSM.mulStep
        rw [if_pos (by rw [c2]; rfl)]
        rfl
      · intro a _ m3
        exact dich _ _ _ _ _
    · intro a _ m2
      exact forM_dich _ (fun m a => dich _ _ _ _ _) _ _
  · intro a _ m1
    exact forM_dich _ (fun m a => forM_dich _ (fun m a => dich _ _ _ _ _) _ _) _ _

example : (BSM.mk 1 1 1 1 0 (DIMap.run [(0, 0, 0)])).mul (α := Int) (BSM.mk 1 1 1 1 1 (DIMap.run [(0, 0, 0)])) 2 (Buf.ofList [3, 4]) =
    .ub := rfl

/-! ## If the indeterminate values are large enough -/

namespace BSM

/-- One term of the sum over the columns of the second matrix. -/
theorem sum_key [AddCommMonoid α] {υ : Type} (k : Int) (H : Int × υ → α) : ∀ (cm : OMap Int υ), OMap.Sorted cm →
    (cm.map fun p => if p.1 = k then H p else 0).sum = match OMap.find? k cm with
      | some c => H (k, c)
      | none => 0
  | [], _ => rfl
  | p :: cm, h => by
    obtain ⟨h1, h2⟩ := List.pairwise_cons.1 h
    rw [List.map_cons, List.sum_cons, sum_key k H cm h2]
    rw [show OMap.find? k (p :: cm) = if k = p.1 then some p.2 else OMap.find? k cm from rfl]
    by_cases c : k = p.1
    · rw [if_pos c.symm, if_pos c]
      have : OMap.find? k cm = none := by
        rw [OMap.find?_eq_none, c]
        intro hm
        have := h1 _ hm
        omega
      rw [this, add_zero, c]
    · rw [if_neg (fun e => c e.symm), if_neg c, zero_add]

theorem sum_flatMap [AddCommMonoid α] {ι κ : Type} (f : ι → List κ) (g : κ → α) : ∀ l : List ι,
    ((l.flatMap f).map g).sum = (l.map fun a => ((f a).map g).sum).sum
  | [] => rfl
  | a :: l => by rw [List.flatMap_cons, List.map_append, List.sum_append, sum_flatMap f g l, List.map_cons, List.sum_cons]

/-- The cells of the result as one matrix. -/
def tall (q n bn bm : Nat) : RV2 := ⟨q, n * bn, bm, bm, 1⟩

theorem tall_from (q n bn bm t : Nat) : (tall q n bn bm).from' (bn * t) bn = sliceOf q bn bm t := by
  unfold tall RV2.from' sliceOf
  congr 1
  dsimp only
  ring

theorem tall_cell (q n bn bm a c : Nat) : (tall q n bn bm).cell a c = q + (bm * a + c) := by
  simp [tall, RV2.cell, Nat.add_assoc]

/-- The triples visited by the loops. -/
def triples (x y : BSM) : List ((Int × OMap Int Nat) × (Int × OMap Int Nat) × (Int × Nat)) :=
  x.offsets.rmap.flatMap fun p1 => y.offsets.cmap.flatMap fun p2 => p1.2.map fun q1 => (p1, p2, q1)

theorem mulWith_eq [Zero α] [Add α] [Mul α] (nb mb : Option Int) (x y : BSM) (q : Nat) (m : Buf α) :
    mulWith nb mb x y q m = (do
      let m ← Res.forM (triples x y) (allocZero m q ((mulOffsets x y).2 * (x.blockn * y.blockm))) fun m e =>
        mulStep nb mb x y (mulOffsets x y).1 q e.1 e.2.1 m e.2.2
      Res.ok ((mulOffsets x y).1, m)) := by
  unfold mulWith triples
  simp only [forM_flatMap, forM_map]

end BSM

/-- If `R.nblocks` and `R.mblocks` hold numbers above all block indices, the product has a block at (i,k) exactly if there are
blocks at some (i,j) and (j,k), and it is the product of the dense matrices.  Missing: nothing gives these fields a value
(C281_block_product_fails). -/
theorem C281_block_product_partial [NonUnitalNonAssocSemiring α] (x y : BSM) (l l' : List (Int × Int × Nat))
    (hx : x.offsets = DIMap.run l) (hy : y.offsets = DIMap.run l') (hxin : x.Inside l) (hyin : y.Inside l')
    (hb : x.blockm = y.blockn) (nb mb : Int) (hnb : x.nblocks ≤ nb) (hmb : y.mblocks ≤ mb)
    (m : Buf α) (E F : Nat → Nat → Nat → α) (hE : x.Blocks l E m) (hF : y.Blocks l' F m)
    (q : Nat) (hq : ∀ c, q ≤ c → m c = none) :
    ∃ d m' G, BSM.mulWith (some nb) (some mb) x y q m = .ok (d, m') ∧
      (∀ i k, d.isFilled i k = true ↔ ∃ j, (lastSet l i j).isSome ∧ (lastSet l' j k).isSome) ∧
      (∀ i k t, BSM.offsetIn d i k = .ok t → ∀ a, a < x.blockn → ∀ c, c < y.blockm →
        m' (q + (x.blockn * y.blockm * t + (y.blockm * a + c))) = some (G t a c)) ∧
      (∀ c, c < q → m' c = m c) ∧
      ∀ a, a < x.nblocks * x.blockn → ∀ c, c < y.mblocks * y.blockm →
        dense (fun i k => (OMap.find? i d.rmap).bind (OMap.find? k)) G x.blockn y.blockm a c =
          ∑ b ∈ Finset.range (x.mblocks * x.blockm), dense (lastSet l) E x.blockn x.blockm a b *
            dense (lastSet l') F y.blockn y.blockm b c := by
  obtain ⟨g, h⟩ := DIMap.run_spec l
  obtain ⟨g', h'⟩ := DIMap.run_spec l'
  rw [← hx] at g h
  rw [← hy] at g' h'
  obtain ⟨gd, hlen, hd⟩ := BSM.offsetsOf_spec (BSM.pairs x y)
  rw [← BSM.mulOffsets_eq] at gd hlen hd
  set d := (BSM.mulOffsets x y).1 with hdd
  set T := (BSM.pairs x y).length with hT
  -- membership of the pairs
  have hpairs : ∀ i k, (i, k) ∈ BSM.pairs x y ↔ ∃ j, (lastSet l i j).isSome ∧ (lastSet l' j k).isSome := by
    intro i k
    unfold BSM.pairs
    rw [List.mem_flatMap]
    constructor
    · rintro ⟨p1, hp1, hm1⟩
      obtain ⟨p2, hm2, e⟩ := List.mem_map.1 hm1
      obtain ⟨hp2, hf⟩ := List.mem_filter.1 hm2
      cases e
      obtain ⟨q1, hq1, hs⟩ := BSM.found_iff.1 hf
      refine ⟨q1.1, ?_, ?_⟩
      · rw [← h]
        unfold DIMap.find2
        rw [OMap.find?_of_mem g.r.rows hp1, Option.bind_some, OMap.find?_of_mem (g.r.cols _ hp1) hq1]
        rfl
      · rw [← h', ← g'.eq]
        unfold DIMap.find2
        rw [OMap.find?_of_mem g'.c.rows hp2]
        exact hs
    · rintro ⟨j, h1, h2⟩
      rw [← h] at h1
      rw [← h', ← g'.eq] at h2
      obtain ⟨s, h1⟩ := Option.isSome_iff_exists.1 h1
      obtain ⟨t, h2⟩ := Option.isSome_iff_exists.1 h2
      obtain ⟨r, r1, r2⟩ := Option.bind_eq_some_iff.1 h1
      obtain ⟨c, c1, c2⟩ := Option.bind_eq_some_iff.1 h2
      refine ⟨(i, r), OMap.mem_of_find? r1, List.mem_map.2 ⟨(k, c), List.mem_filter.2 ⟨OMap.mem_of_find? c1, ?_⟩, rfl⟩⟩
      exact BSM.found_iff.2 ⟨(j, s), OMap.mem_of_find? r2, by dsimp only; rw [c2]; rfl⟩
  have hfill : ∀ i k, (DIMap.find2 d.rmap i k).isSome ↔ (i, k) ∈ BSM.pairs x y := by
    intro i k
    have := (C275_constructor (α := Int) 0 0 0 0 (BSM.pairs x y) 0 (fun _ => none)).1 i k
    rw [← this, DIMap.isFilled_eq]
    dsimp only [BSM.new]
    rw [← BSM.mulOffsets_eq]
  have hT' : ∀ i k t, DIMap.find2 d.rmap i k = some t → t < T := fun i k t ht => BSM.LastPlace.lt ((hd i k t).1 ht)
  have hdinj : ∀ i k i' k' t, DIMap.find2 d.rmap i k = some t → DIMap.find2 d.rmap i' k' = some t → i = i' ∧ k = k' := by
    intro i k i' k' t h1 h2
    have e := ((hd _ _ _).1 h1).1.symm.trans ((hd _ _ _).1 h2).1
    have e := Option.some.inj e
    exact ⟨congrArg Prod.fst e, congrArg Prod.snd e⟩
  -- what the triples are
  have htri : ∀ e ∈ BSM.triples x y, lastSet l e.1.1 e.2.2.1 = some e.2.2.2 ∧
      (∀ u, OMap.find? e.2.2.1 e.2.1.2 = some u → lastSet l' e.2.2.1 e.2.1.1 = some u) := by
    intro e he
    obtain ⟨p1, hp1, he⟩ := List.mem_flatMap.1 he
    obtain ⟨p2, hp2, he⟩ := List.mem_flatMap.1 he
    obtain ⟨q1, hq1, rfl⟩ := List.mem_map.1 he
    constructor
    · rw [← h]
      unfold DIMap.find2
      rw [OMap.find?_of_mem g.r.rows hp1, Option.bind_some, OMap.find?_of_mem (g.r.cols _ hp1) hq1]
    · intro u hu
      rw [← h', ← g'.eq]
      unfold DIMap.find2
      rw [OMap.find?_of_mem g'.c.rows hp2]
      exact hu
  set V := BSM.tall q T x.blockn y.blockm with hV
  set m0 := allocZero m q (T * (x.blockn * y.blockm)) with hm0
  have hVfresh : ∀ a c, q ≤ V.cell a c := by
    intro a c; rw [hV, BSM.tall_cell]; omega
  have hVinj : V.Inj := by
    intro a ha b hb' k hk n hn' e
    rw [hV, BSM.tall_cell, BSM.tall_cell] at e
    have e := Nat.add_left_cancel e
    have hb'' : b < y.blockm := hb'
    have hn'' : n < y.blockm := hn'
    exact ⟨by rw [← RV2.flat_div (i := a) hb'', e, RV2.flat_div hn''], by rw [← RV2.flat_mod (i := a) hb'', e, RV2.flat_mod hn'']⟩
  have hV0 : V.Has m0 fun _ _ => 0 := by
    intro a ha c hc
    rw [hV, BSM.tall_cell, hm0]
    have := RV2.flat_lt (n1 := y.blockm) ha hc
    have e2 : T * x.blockn * y.blockm = T * (x.blockn * y.blockm) := Nat.mul_assoc _ _ _
    have e3 : V.n0 = T * x.blockn := rfl
    rw [e3] at this
    unfold allocZero
    rw [if_pos ⟨by omega, by omega⟩]
  have keep : ∀ z v, m z = some v → z < q ∧ m0 z = some v := by
    intro z v hz
    have hzq : z < q := by
      by_contra c
      rw [hq z (by omega)] at hz
      cases hz
    refine ⟨hzq, ?_⟩
    rw [hm0]
    unfold allocZero
    rw [if_neg (by omega)]
    exact hz
  have hbig : 0 < x.blockn ∨ V.n0 = 0 := by
    rcases Nat.eq_zero_or_pos x.blockn with c | c
    · right; show T * x.blockn = 0; rw [c, Nat.mul_zero]
    · exact Or.inl c
  obtain ⟨m', k1, k2, k3⟩ := adds_run V
    (fun m e => BSM.mulStep (some nb) (some mb) x y d q e.1 e.2.1 m e.2.2)
    (fun (e : (Int × OMap Int Nat) × (Int × OMap Int Nat) × (Int × Nat)) a c =>
      match OMap.find? e.2.2.1 e.2.1.2 with
      | none => 0
      | some u => if DIMap.find2 d.rmap e.1.1 e.2.1.1 = some (a / x.blockn) then
          ∑ k ∈ Finset.range x.blockm, E e.2.2.2 (a % x.blockn) k * F u k c else 0) m0 (BSM.triples x y)
    (by
      intro e he m1 R1 hm1
      obtain ⟨t1, t2⟩ := htri e he
      cases hu : OMap.find? e.2.2.1 e.2.1.2 with
      | none =>
        refine ⟨m1, ?_, ?_, fun _ _ => rfl⟩
        · unfold BSM.mulStep
          rw [hu]; rfl
        · simpa using hm1.1
      | some u =>
        have t2 := t2 u hu
        have hfl : (DIMap.find2 d.rmap e.1.1 e.2.1.1).isSome := by
          rw [hfill, hpairs]
          exact ⟨e.2.2.1, by rw [t1]; rfl, by rw [t2]; rfl⟩
        obtain ⟨t, ht⟩ := Option.isSome_iff_exists.1 hfl
        have htT := hT' _ _ _ ht
        obtain ⟨x0, x1, x2, x3⟩ := hxin _ _ _ t1
        obtain ⟨y0, y1, y2, y3⟩ := hyin _ _ _ t2
        have hXA : ∀ a, a < x.blockn → ∀ c, c < x.blockm →
            m (x.mx + (x.blockn * x.blockm * e.2.2.2 + (x.blockm * a + c))) = some (E e.2.2.2 a c) := hE _ _ _ t1
        have hYA : ∀ a, a < y.blockn → ∀ c, c < y.blockm →
            m (y.mx + (y.blockn * y.blockm * u + (y.blockm * a + c))) = some (F u a c) := hF _ _ _ t2
        have hax : V.Apart (BSM.sliceOf x.mx x.blockn x.blockm e.2.2.2) := by
          intro a ha b hb' k hk c hc ee
          rw [BSM.slice_cell] at ee
          have := (keep _ _ (hXA k hk c hc)).1
          have := hVfresh a b
          omega
        have hay : V.Apart (BSM.sliceOf y.mx y.blockn y.blockm u) := by
          intro a ha b hb' k hk c hc ee
          rw [BSM.slice_cell] at ee
          have := (keep _ _ (hYA k hk c hc)).1
          have := hVfresh a b
          omega
        obtain ⟨m2, e1, e2⟩ := rows_step V t x.blockn hbig (blocks_le htT) hVinj
          (BSM.sliceOf x.mx x.blockn x.blockm e.2.2.2) (BSM.sliceOf y.mx y.blockn y.blockm u) rfl rfl hb.symm hax hay m1 R1
          (E e.2.2.2) (F u) hm1.1
          (by
            intro a ha c hc
            rw [hm1.2 _ fun k hk n hn' ee => hax k hk n hn' a ha c hc ee.symm, BSM.slice_cell]
            exact (keep _ _ (hXA a ha c hc)).2)
          (by
            intro a ha c hc
            rw [hm1.2 _ fun k hk n hn' ee => hay k hk n hn' a ha c hc ee.symm, BSM.slice_cell]
            exact (keep _ _ (hYA a ha c hc)).2)
        refine ⟨m2, ?_, ?_⟩
        · unfold BSM.mulStep
          rw [hu, if_pos Option.isSome_some]
          have b1 : BSM.blockIn (some nb) (some mb) d q x.blockn y.blockm e.1.1 e.2.1.1 =
              .ok (BSM.sliceOf q x.blockn y.blockm t) := by
            unfold BSM.blockIn
            have c1 : e.1.1 < nb := by omega
            have c2 : e.2.1.1 < mb := by omega
            simp [BSM.value, c1, c2, BSM.offsetIn_eq, ht]
          have b2 : x.block e.1.1 e.2.2.1 = .ok (BSM.sliceOf x.mx x.blockn x.blockm e.2.2.2) := by
            unfold BSM.block BSM.blockIn
            simp [BSM.value, x1, x3, BSM.offsetIn_eq, h, t1]
          have b3 : y.block e.2.2.1 e.2.1.1 = .ok (BSM.sliceOf y.mx y.blockn y.blockm u) := by
            unfold BSM.block BSM.blockIn
            simp [BSM.value, y1, y3, BSM.offsetIn_eq, h', t2]
          rw [b1, b2, b3]
          simp only [Res.ok_bind]
          rw [← BSM.tall_from q T]
          exact e1
        · convert e2 using 4
          rename_i a c
          rw [ht]
          simp only [Option.some.injEq, eq_comm (a := t), BSM.sliceOf]) m0 (fun _ _ => 0) ⟨hV0, fun _ _ => rfl⟩
  refine ⟨d, m', fun t a c => 0 + ((BSM.triples x y).map fun e => match OMap.find? e.2.2.1 e.2.1.2 with
      | none => 0
      | some u => if DIMap.find2 d.rmap e.1.1 e.2.1.1 = some ((x.blockn * t + a) / x.blockn) then
          ∑ k ∈ Finset.range x.blockm, E e.2.2.2 ((x.blockn * t + a) % x.blockn) k * F u k c else 0).sum, ?_, ?_, ?_, ?_, ?_⟩
  · rw [BSM.mulWith_eq, hlen]
    show (do let m ← Res.forM (BSM.triples x y) m0 _; Res.ok (d, m)) = _
    rw [k1]
    rfl
  · intro i k
    rw [DIMap.isFilled_eq, hfill, hpairs]
  · intro i k t ht a ha c hc
    rw [BSM.offsetIn_eq] at ht
    have ht : DIMap.find2 d.rmap i k = some t := by
      cases hh : DIMap.find2 d.rmap i k with
      | none => rw [hh] at ht; cases ht
      | some s => rw [hh] at ht; cases ht; rfl
    have := hT' _ _ _ ht
    have hlt : x.blockn * t + a < T * x.blockn := RV2.flat_lt this ha
    have := k2 _ hlt c hc
    rw [BSM.tall_cell] at this
    rw [show q + (x.blockn * y.blockm * t + (y.blockm * a + c)) = q + (y.blockm * (x.blockn * t + a) + c) by ring]
    exact this
  · intro c hc
    rw [k3 c (fun a ha b hb' e => by have := hVfresh a b; omega), hm0]
    unfold allocZero
    rw [if_neg (by omega)]
  · intro a ha c hc
    have hbn : 0 < x.blockn := by
      rcases Nat.eq_zero_or_pos x.blockn with e | e
      · rw [e, Nat.mul_zero] at ha; omega
      · exact e
    have hbm : 0 < y.blockm := by
      rcases Nat.eq_zero_or_pos y.blockm with e | e
      · rw [e, Nat.mul_zero] at hc; omega
      · exact e
    have hmemx : ∀ i j t, (i, j, t) ∈ x.offsets.forEach ↔ lastSet l i j = some t := fun i j t => by
      rw [DIMap.mem_forEach g.r, h]
    rw [← blocks_dense (lastSet l) E x.blockn x.blockm x.mblocks a (fun b => dense (lastSet l') F y.blockn y.blockm b c)
      x.offsets.forEach ((DIMap.forEach_before g.r).imp Before.pos_ne) hmemx
      (by
        rintro ⟨i, j, t⟩ he
        have := hxin i j t ((hmemx i j t).1 he)
        exact ⟨this.2.2.1, this.2.2.2⟩)]
    -- the terms on the right
    have hterm : ∀ e ∈ x.offsets.forEach, (∑ k ∈ Finset.range x.blockm, E e.2.2 (a % x.blockn) k *
        dense (lastSet l') F y.blockn y.blockm (x.blockm * e.2.1.toNat + k) c) =
        match lastSet l' e.2.1 ((c / y.blockm : Nat) : Int) with
        | none => 0
        | some u => ∑ k ∈ Finset.range x.blockm, E e.2.2 (a % x.blockn) k * F u k (c % y.blockm) := by
      rintro ⟨i, j, t⟩ he
      obtain ⟨_, _, j0, _⟩ := hxin i j t ((hmemx i j t).1 he)
      obtain ⟨j, rfl⟩ := Int.eq_ofNat_of_zero_le j0
      dsimp only
      rw [Int.toNat_natCast]
      cases hu : lastSet l' (j : Int) ((c / y.blockm : Nat) : Int) with
      | none =>
        dsimp only
        apply Finset.sum_eq_zero
        intro k hk
        rw [Finset.mem_range] at hk
        unfold dense
        rw [← hb, RV2.flat_div hk, hu, mul_zero]
      | some u =>
        dsimp only
        apply Finset.sum_congr rfl
        intro k hk
        rw [Finset.mem_range] at hk
        unfold dense
        rw [← hb, RV2.flat_div hk, hu, RV2.flat_mod hk]
    -- the right side, row by row
    have hright : (x.offsets.forEach.map fun e => if e.1 = ((a / x.blockn : Nat) : Int) then
          ∑ k ∈ Finset.range x.blockm, E e.2.2 (a % x.blockn) k *
            dense (lastSet l') F y.blockn y.blockm (x.blockm * e.2.1.toNat + k) c else 0).sum =
        (x.offsets.rmap.map fun p1 => (p1.2.map fun q1 => if p1.1 = ((a / x.blockn : Nat) : Int) then
          (match lastSet l' q1.1 ((c / y.blockm : Nat) : Int) with
            | none => 0
            | some u => ∑ k ∈ Finset.range x.blockm, E q1.2 (a % x.blockn) k * F u k (c % y.blockm)) else 0).sum).sum := by
      rw [show (x.offsets.forEach.map fun e => if e.1 = ((a / x.blockn : Nat) : Int) then
          ∑ k ∈ Finset.range x.blockm, E e.2.2 (a % x.blockn) k *
            dense (lastSet l') F y.blockn y.blockm (x.blockm * e.2.1.toNat + k) c else 0) =
          x.offsets.forEach.map fun e => if e.1 = ((a / x.blockn : Nat) : Int) then
          (match lastSet l' e.2.1 ((c / y.blockm : Nat) : Int) with
            | none => 0
            | some u => ∑ k ∈ Finset.range x.blockm, E e.2.2 (a % x.blockn) k * F u k (c % y.blockm)) else 0 from
        List.map_congr_left fun e he => by rw [hterm e he]]
      unfold DIMap.forEach
      rw [BSM.sum_flatMap]
      simp only [List.map_map]
      rfl
    rw [hright]
    unfold dense
    dsimp only
    cases hdf : DIMap.find2 d.rmap ((a / x.blockn : Nat) : Int) ((c / y.blockm : Nat) : Int) with
    | none =>
      have hdf' : ((OMap.find? ((a / x.blockn : Nat) : Int) d.rmap).bind (OMap.find? ((c / y.blockm : Nat) : Int))) = none := hdf
      rw [hdf']
      symm
      dsimp only
      apply List.sum_eq_zero
      intro z hz
      obtain ⟨p1, hp1, rfl⟩ := List.mem_map.1 hz
      apply List.sum_eq_zero
      intro z hz
      obtain ⟨q1, hq1, rfl⟩ := List.mem_map.1 hz
      by_cases c1 : p1.1 = ((a / x.blockn : Nat) : Int)
      · rw [if_pos c1]
        cases hu : lastSet l' q1.1 ((c / y.blockm : Nat) : Int) with
        | none => rfl
        | some u =>
          exfalso
          have : (DIMap.find2 d.rmap ((a / x.blockn : Nat) : Int) ((c / y.blockm : Nat) : Int)).isSome := by
            rw [hfill, hpairs]
            refine ⟨q1.1, ?_, by rw [hu]; rfl⟩
            rw [← h, ← c1]
            unfold DIMap.find2
            rw [OMap.find?_of_mem g.r.rows hp1, Option.bind_some, OMap.find?_of_mem (g.r.cols _ hp1) hq1]
            rfl
          rw [hdf] at this
          cases this
      · rw [if_neg c1]
    | some t =>
      have hdf' : ((OMap.find? ((a / x.blockn : Nat) : Int) d.rmap).bind (OMap.find? ((c / y.blockm : Nat) : Int))) = some t := hdf
      rw [hdf']
      dsimp only
      have hmod := Nat.mod_lt a hbn
      rw [RV2.flat_div hmod, RV2.flat_mod hmod, zero_add]
      unfold BSM.triples
      rw [BSM.sum_flatMap]
      congr 1
      apply List.map_congr_left
      intro p1 hp1
      rw [BSM.sum_flatMap]
      simp only [List.map_map]
      have hstep : ∀ p2 ∈ y.offsets.cmap, (p1.2.map ((fun e : (Int × OMap Int Nat) × (Int × OMap Int Nat) × (Int × Nat) =>
            match OMap.find? e.2.2.1 e.2.1.2 with
            | none => (0 : α)
            | some u => if DIMap.find2 d.rmap e.1.1 e.2.1.1 = some t then
                ∑ k ∈ Finset.range x.blockm, E e.2.2.2 (a % x.blockn) k * F u k (c % y.blockm) else 0) ∘ fun q1 => (p1, p2, q1))).sum =
          if p2.1 = ((c / y.blockm : Nat) : Int) then (p1.2.map fun q1 => if p1.1 = ((a / x.blockn : Nat) : Int) then
            (match OMap.find? q1.1 p2.2 with
              | none => (0 : α)
              | some u => ∑ k ∈ Finset.range x.blockm, E q1.2 (a % x.blockn) k * F u k (c % y.blockm)) else 0).sum else 0 := by
        intro p2 hp2
        by_cases c2 : p2.1 = ((c / y.blockm : Nat) : Int)
        · rw [if_pos c2]
          congr 1
          apply List.map_congr_left
          intro q1 _
          dsimp only [Function.comp]
          by_cases c1 : p1.1 = ((a / x.blockn : Nat) : Int)
          · rw [if_pos c1, c1, c2, hdf]
            simp only [if_true]
          · rw [if_neg c1]
            cases hu : OMap.find? q1.1 p2.2 with
            | none => rfl
            | some u =>
              dsimp only
              rw [if_neg]
              intro hh
              exact c1 (hdinj _ _ _ _ _ hh hdf).1
        · rw [if_neg c2]
          apply List.sum_eq_zero
          intro z hz
          obtain ⟨q1, hq1, rfl⟩ := List.mem_map.1 hz
          dsimp only [Function.comp]
          cases hu : OMap.find? q1.1 p2.2 with
          | none => rfl
          | some u =>
            dsimp only
            rw [if_neg]
            intro hh
            exact c2 (hdinj _ _ _ _ _ hh hdf).2
      refine (congrArg List.sum (List.map_congr_left hstep)).trans ?_
      refine (BSM.sum_key ((c / y.blockm : Nat) : Int) (fun p2 : Int × OMap Int Nat => (p1.2.map fun q1 =>
          if p1.1 = ((a / x.blockn : Nat) : Int) then
            (match OMap.find? q1.1 p2.2 with
              | none => (0 : α)
              | some u => ∑ k ∈ Finset.range x.blockm, E q1.2 (a % x.blockn) k * F u k (c % y.blockm)) else 0).sum) _ g'.c.rows).trans ?_
      have hcol : ∀ j : Int, lastSet l' j ((c / y.blockm : Nat) : Int) =
          (OMap.find? ((c / y.blockm : Nat) : Int) y.offsets.cmap).bind (OMap.find? j) := by
        intro j
        rw [← h', ← g'.eq]
        rfl
      cases hc' : OMap.find? ((c / y.blockm : Nat) : Int) y.offsets.cmap with
      | none =>
        dsimp only
        symm
        apply List.sum_eq_zero
        intro z hz
        obtain ⟨q1, hq1, rfl⟩ := List.mem_map.1 hz
        rw [hcol, hc']
        simp
      | some col =>
        dsimp only
        congr 1
        apply List.map_congr_left
        intro q1 _
        rw [hcol, hc']
        rfl

example : ∃ d m', (BSM.mk 1 2 1 1 0 (DIMap.run [(0, 0, 0), (0, 1, 1)])).mulWith (α := Int) (some 9) (some 9)
    (BSM.mk 2 1 1 1 2 (DIMap.run [(0, 0, 0), (1, 0, 1)])) 4 (Buf.ofList [3, 4, 10, 100]) = .ok (d, m') ∧
    d.forEach = [(0, 0, 0)] ∧ m' 4 = some 430 := ⟨_, _, rfl, by decide, by decide⟩

end Cnine
