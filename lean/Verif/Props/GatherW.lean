import Verif.Lemmas.GatherW

/-!
# C45: weighted gather maps;  C46: packs of gather maps
-/

namespace Cnine

open HeadSpec GatherSpec

namespace WMap

/-- Weighted maps made by appending rows of (source, weight) pairs and inverting. -/
inductive Made : GMap → Prop
  | ofSizes (nOut nIn : Int) : Made (GMap.ofSizes nOut nIn)
  | pushVec {g t l g'} (hg : Made g) (h : GMap.pushVec g t (flat l) = .ok g') : Made g'
  | makeInv {g g'} (hg : Made g) (h : WMap.makeInv g = .ok g') : Made g'

theorem Made.holds {g : GMap} (h : Made g) : (∃ rows, Holds g rows) ∧ g.sorted = false := by
  induction h with
  | ofSizes nOut nIn => exact ⟨⟨[], HL.holds_empty⟩, rfl⟩
  | @pushVec g t l g' _ h ih =>
    obtain ⟨rows, hr⟩ := ih.1
    obtain ⟨p1, e1, e2⟩ := (HL.step_spec (.pushVec t (flat l)) hr).1 _ rfl
    have e1' : HL.pushVec g.arr t (flat l) = .ok p1 := e1
    unfold GMap.pushVec at h
    rw [e1', Res.ok_bind] at h
    cases h
    refine ⟨⟨rows ++ [(t, l)], ?_⟩, rfl⟩
    unfold Holds GMap.Holds
    rw [List.map_append, List.map_append]
    exact e2
  | makeInv _ h ih =>
    obtain ⟨rows, hr⟩ := ih.1
    obtain ⟨g', e1, _, _, _, _, e2⟩ := makeInv_ok hr
    have h' := h
    rw [e1] at h
    cases h
    refine ⟨⟨_, e2⟩, ?_⟩
    unfold WMap.makeInv at h'
    obtain ⟨es, _, h'⟩ := Res.bind_eq_ok.mp h'
    dsimp only at h'
    obtain ⟨p, _, h'⟩ := Res.bind_eq_ok.mp h'
    obtain ⟨p, _, h'⟩ := Res.bind_eq_ok.mp h'
    cases h'
    rfl

/-- An edge list with weights turned around. -/
def reversed (es : List (Int × Int × Int)) : List (Int × Int × Int) := es.map fun e => (e.2.1, e.1, e.2.2)

/-- C45: the inverse has the reversed edges with their weights, and rows swapped; the numbers of columns are
not carried over (they become 1). -/
theorem C45_inv_partial {g : GMap} (h : Made g) : ∃ es g' es', forEach g = .ok es ∧ makeInv g = .ok g' ∧
    forEach g' = .ok es' ∧ es'.Perm (reversed es) ∧ g'.nOut = g.nIn ∧ g'.nIn = g.nOut ∧
    g'.inCols = 1 ∧ g'.outCols = 1 ∧ Made g' := by
  obtain ⟨⟨rows, hr⟩, _⟩ := h.holds
  obtain ⟨g', e1, e2, e3, e4, e5, e6⟩ := makeInv_ok hr
  refine ⟨_, g', _, forEach_ok hr, e1, forEach_ok e6, ?_, e2, e3, e4, e5, h.makeInv e1⟩
  have := GMap.foldPush_edges (fun e : Int × Int × Int => e.2.1) (fun e => (e.1, e.2.2)) (edges rows) []
  simpa [edges, reversed] using this

/-- 0 ← 1 with weight 1.5, 0 ← 2 with weight 2.0; 5 ← 1 with weight -0.5 (bit patterns). -/
def exMap : Res GMap := do
  let g ← (GMap.ofSizes 6 3).pushVec 0 (flat [(1, 1069547520), (2, 1073741824)])
  g.pushVec 5 (flat [(1, -1090519040)])

example : (exMap >>= fun g => makeInv g >>= forEach) =
    .ok [(1, 0, 1069547520), (1, 5, -1090519040), (2, 0, 1073741824)] := by decide

/-- C45: inverting twice gives back the weighted edges. -/
theorem C45_inv_inv {g : GMap} (h : Made g) : ∃ es g' g'' es'', forEach g = .ok es ∧ makeInv g = .ok g' ∧
    makeInv g' = .ok g'' ∧ forEach g'' = .ok es'' ∧ es''.Perm es ∧ g''.nOut = g.nOut ∧ g''.nIn = g.nIn := by
  obtain ⟨es, g', es', a1, a2, a3, a4, a5, a6, _, _, a7⟩ := C45_inv_partial h
  obtain ⟨es2, g'', es'', b1, b2, b3, b4, b5, b6, _⟩ := C45_inv_partial a7
  rw [a3] at b1
  cases b1
  refine ⟨es, g', g'', es'', a1, a2, b2, b3, ?_, by rw [b5, a6], by rw [b6, a5]⟩
  refine b4.trans ((a4.map _).trans ?_)
  unfold reversed
  rw [List.map_map]
  simp [Function.comp_def]

/-- The column counts are lost by inverting. -/
theorem C45_inv_columns_fails : ∃ g g' : GMap, g.inCols = 2 ∧ g.outCols = 3 ∧ makeInv g = .ok g' ∧
    g'.inCols = 1 ∧ g'.outCols = 1 :=
  ⟨{ GMap.ofSizes 1 1 with inCols := 2, outCols := 3 }, _, rfl, rfl, rfl, rfl, rfl⟩

/-- C45, sorting: rows keep target and sources, by non-increasing length, but each weight is replaced by the
float whose bits are the weight's integer part (when that integer part is an `int`; undefined otherwise). -/
theorem C45_sort_partial {g : GMap} (h : Made g) {es : List (Int × Int × Int)} (he : forEach g = .ok es)
    (tr : Int → Int) (ht : ∀ e ∈ es, truncBits e.2.2 = .ok (tr e.2.2)) :
    ∃ g' es', sort g = .ok g' ∧ forEach g' = .ok es' ∧ es'.Perm (es.map fun e => (e.1, e.2.1, tr e.2.2)) ∧
      g'.sorted = true ∧ g'.nOut = g.nOut ∧ g'.nIn = g.nIn := by
  obtain ⟨⟨rows, hr⟩, hs⟩ := h.holds
  rw [forEach_ok hr] at he
  cases he
  obtain ⟨g', e1, e2, e3, e4, e5⟩ := sort_ok hr (tr := tr) (fun r hr e he => ht (r.1, e) (GMap.mem_edges' hr he)) hs
  refine ⟨g', _, e1, forEach_ok e5, ?_, e2, e3, e4⟩
  have h1 : ((edges (convRows tr (pick rows ((GMap.groups true (bare rows)).flatMap (·.2)))))).Perm
      (edges (convRows tr rows)) := ((pick_perm rows).map _).flatMap_right _
  refine h1.trans (List.Perm.of_eq ?_)
  unfold edges convRows conv
  rw [List.flatMap_map, List.map_flatMap]
  simp [List.map_map, Function.comp_def]

example : (exMap >>= forEach) = .ok [(0, 1, 1069547520), (0, 2, 1073741824), (5, 1, -1090519040)] ∧
    truncBits 1069547520 = .ok 1 ∧ truncBits 1073741824 = .ok 2 ∧ truncBits (-1090519040) = .ok 0 := by decide

/-- C45 is false for sorting: the weights 1.5, 2.0, -0.5 become the denormal numbers with bits 1, 2, 0. -/
theorem C45_sort_fails : (exMap >>= fun g => sort g >>= forEach) = .ok [(0, 1, 1), (0, 2, 2), (5, 1, 0)] := by
  decide

/-- C45 is false for sorting: a weight of 2^31 makes the conversion undefined. -/
theorem C45_sort_ub_fails : ((GMap.ofSizes 1 1).pushVec 0 (flat [(0, 1325400064)]) >>= fun g => sort g) = .ub := by
  decide

/-- C45 is false for the constructor from arrays: with at least one edge it throws. -/
theorem C45_ofArrays_fails (ord sources targets weights : List Int) (hl : sources.length = targets.length)
    (hw : sources.length ≤ weights.length) (hne : sources ≠ []) (ho : ord.Nodup ∧ ∀ t, t ∈ ord ↔ t ∈ targets) :
    ofArrays ord sources targets weights = .throw := by
  match sources, targets, weights, hl, hw, hne with
  | s :: ss, t :: ts, w :: ws, hl, _, _ =>
    obtain ⟨p, e1, e2⟩ := HL.C38_ofLengths true ord (ord.map fun t' => GMap.countOf (t :: ts) t') (by simp)
    rw [List.map_map] at e1
    have e1' : HL.ofLengths true ord (ord.map fun t' => (GMap.countOf (t :: ts) t' : Int)) = .ok p := e1
    have hz : ord.zip ord = ord.map fun t => (t, t) := by
      clear e1 e2 e1' ho
      induction ord with
      | nil => rfl
      | cons a l ih => simp [ih]
    rw [List.zip_map_right, hz, List.map_map, List.map_map] at e2
    have ht : t ∈ ord := (ho.2 t).mpr (by simp)
    have ha : HL.append p (ord.idxOf t : Nat) s = .throw := (HL.step_spec (.append (ord.idxOf t) s) e2).2 (by
      simp only [HeadSpec.step, List.getElem?_map, List.getElem?_idxOf ht, Option.map_some, Function.comp]
      rw [if_neg (by simp [HL.initRow])])
    unfold ofArrays
    rw [Pool.assrt_pos hl, Res.ok_bind, e1', Res.ok_bind]
    rw [List.zip_cons_cons, List.zip_cons_cons]
    unfold fillEdges append
    dsimp only
    rw [ha]
    rfl

example : ofArrays [2] [5] [2] [1065353216] = .throw := by decide

/-- The number of operations reported for a weighted map: half of (targets plus 2 per edge) minus the number of
rows, instead of the number of edges. -/
theorem C45_nOps_fails : (exMap >>= fun g => .ok (nOps g)) = .ok 2 ∧
    (exMap >>= forEach >>= fun es => .ok es.length) = .ok 3 := by decide

end WMap

/-! ## C46 -/

namespace GPack

/-- The maps agree with the first in input rows and columns. -/
def Agree (x : GMap) (l : List GMap) : Prop :=
  ∀ y ∈ l, y.nIn = x.nIn ∧ y.inCols = x.inCols ∧ y.outCols = x.outCols ∧ y.inColsN = x.inColsN ∧
    y.outColsN = x.outColsN

theorem offsLoop_ok (x : GMap) : ∀ (l : List GMap) (io oo : Int) (p : GPack),
    p.nIn = x.nIn → p.inCols = x.inCols → p.outCols = x.outCols → p.inColsN = x.inColsN → p.outColsN = x.outColsN →
    Agree x l → ∃ q, offsLoop io oo l p = .ok q ∧ q.maps = p.maps ∧ q.nIn = x.nIn ∧
      q.nOut = p.nOut + (l.map (·.nOut)).sum ∧
      q.inOffs = p.inOffs ++ (List.range l.length).map (fun k => io + ((l.take k).map fun y => y.nIn * (y.inCols : Int)).sum) ∧
      q.outOffs = p.outOffs ++ (List.range l.length).map (fun k => oo + ((l.take k).map fun y => y.nOut * (y.outCols : Int)).sum)
  | [], io, oo, p, h1, _, _, _, _, _ => ⟨p, rfl, rfl, h1, by simp, by simp, by simp⟩
  | y :: l, io, oo, p, h1, h2, h3, h4, h5, ha => by
    have hy := ha y (by simp)
    have hf : p.fits y = true := by
      unfold fits
      rw [decide_eq_true_eq, h1, h2, h3, h4, h5]
      exact hy
    obtain ⟨q, e1, e2, e3, e4, e5, e6⟩ := offsLoop_ok x l (io + y.nIn * p.inCols) (oo + y.nOut * p.outCols)
      { p with inOffs := p.inOffs ++ [io], outOffs := p.outOffs ++ [oo], nOut := p.nOut + y.nOut }
      h1 h2 h3 h4 h5 (fun z hz => ha z (List.mem_cons_of_mem _ hz))
    refine ⟨q, ?_, e2, e3, ?_, ?_, ?_⟩
    · unfold offsLoop
      rw [hf]
      exact e1
    · rw [e4, List.map_cons, List.sum_cons]; dsimp only; omega
    · rw [e5]
      simp only [List.append_assoc, List.length_cons, List.range_succ_eq_map, List.map_cons, List.map_map,
        List.take_zero, List.map_nil, List.sum_nil, Int.add_zero, List.singleton_append]
      rw [h2, ← hy.2.1]
      congr 2
      apply List.map_congr_left
      intro k _
      simp only [Function.comp, List.take_succ_cons, List.map_cons, List.sum_cons]
      omega
    · rw [e6]
      simp only [List.append_assoc, List.length_cons, List.range_succ_eq_map, List.map_cons, List.map_map,
        List.take_zero, List.map_nil, List.sum_nil, Int.add_zero, List.singleton_append]
      rw [h3, ← hy.2.2.1]
      congr 2
      apply List.map_congr_left
      intro k _
      simp only [Function.comp, List.take_succ_cons, List.map_cons, List.sum_cons]
      omega

theorem offsLoop_throw (x : GMap) : ∀ (l : List GMap) (io oo : Int) (p : GPack),
    p.nIn = x.nIn → p.inCols = x.inCols → p.outCols = x.outCols → p.inColsN = x.inColsN → p.outColsN = x.outColsN →
    ¬ Agree x l → offsLoop io oo l p = .throw
  | [], _, _, _, _, _, _, _, _, ha => absurd (by intro y hy; cases hy) ha
  | y :: l, io, oo, p, h1, h2, h3, h4, h5, ha => by
    unfold offsLoop
    cases hf : p.fits y with
    | false => rfl
    | true =>
      unfold fits at hf
      rw [decide_eq_true_eq, h1, h2, h3, h4, h5] at hf
      refine offsLoop_throw x l _ _ _ h1 h2 h3 h4 h5 ?_
      intro hc
      apply ha
      intro z hz
      rcases List.mem_cons.mp hz with rfl | hz
      · exact hf
      · exact hc z hz

/-- C46, the pack of a vector of maps: the offset of map `k` is the total of rows times columns of the maps
before it, on each side; output rows are the total. -/
theorem C46_ofVec (x : GMap) (l : List GMap) (ha : Agree x l) : ∃ p, ofVec (x :: l) = .ok p ∧ p.maps = x :: l ∧
    p.nIn = x.nIn ∧ p.nOut = ((x :: l).map (·.nOut)).sum ∧
    p.inOffs = (List.range (l.length + 1)).map (fun k => (((x :: l).take k).map fun y => y.nIn * (y.inCols : Int)).sum) ∧
    p.outOffs = (List.range (l.length + 1)).map (fun k => (((x :: l).take k).map fun y => y.nOut * (y.outCols : Int)).sum) := by
  obtain ⟨q, e1, e2, e3, e4, e5, e6⟩ := offsLoop_ok x (x :: l) 0 0
    { maps := x :: l, nIn := x.nIn, inCols := x.inCols, outCols := x.outCols, inColsN := x.inColsN
      outColsN := x.outColsN } rfl rfl rfl rfl rfl (by
        intro y hy
        rcases List.mem_cons.mp hy with rfl | hy
        · exact ⟨rfl, rfl, rfl, rfl, rfl⟩
        · exact ha y hy)
  refine ⟨q, e1, e2, e3, ?_, ?_, ?_⟩
  · rw [e4]; simp
  · rw [e5]; simp
  · rw [e6]; simp

/-- C46: maps that do not agree, and an empty vector, are refused. -/
theorem C46_ofVec_throw (x : GMap) (l : List GMap) (ha : ¬ Agree x l) : ofVec (x :: l) = .throw ∧ ofVec [] = .throw := by
  refine ⟨?_, rfl⟩
  unfold ofVec
  refine offsLoop_throw x _ _ _ _ rfl rfl rfl rfl rfl ?_
  intro hc
  exact ha fun y hy => hc y (List.mem_cons_of_mem _ hy)

example : Agree (GMap.ofSizes 4 7) [GMap.ofSizes 2 7, GMap.ofSizes 9 7] ∧
    (ofVec [GMap.ofSizes 4 7, GMap.ofSizes 2 7, GMap.ofSizes 9 7] >>= fun p => .ok (p.inOffs, p.outOffs, p.nOut)) =
      .ok ([0, 7, 14], [0, 4, 6], 15) := by
  refine ⟨?_, by decide⟩
  intro y hy
  simp only [List.mem_cons, List.not_mem_nil, or_false] at hy
  rcases hy with rfl | rfl <;> exact ⟨rfl, rfl, rfl, rfl, rfl⟩

example : ¬ Agree (GMap.ofSizes 4 7) [GMap.ofSizes 2 8] := by
  intro h; exact absurd (h (GMap.ofSizes 2 8) (by simp)).1 (by decide)

/-- C46 is false for the pack of one map: its number of output rows is the number of input rows. -/
theorem C46_single_fails : (single (GMap.ofSizes 4 7)).nOut = 7 := rfl

/-- C46, appending to a pack with at least one map: the input offset is right (all maps have the same number of
input rows); the output offset is the previous offset plus the rows of the *new* map. -/
theorem C46_pushBack_partial (p : GPack) (x : GMap) (io oo : Int) (ms : List GMap) (m : GMap)
    (hm : p.maps = ms ++ [m]) (hi : p.inOffs.getLast? = some io) (ho : p.outOffs.getLast? = some oo)
    (hf : x.nIn = p.nIn ∧ x.inCols = p.inCols ∧ x.outCols = p.outCols ∧ x.inColsN = p.inColsN ∧
      x.outColsN = p.outColsN) (hin : m.nIn = p.nIn ∧ m.inCols = p.inCols ∧ m.outCols = p.outCols) :
    ∃ q, p.pushBack x = .ok (q, true) ∧ q.maps = p.maps ++ [x] ∧ q.inOffs = p.inOffs ++ [io + m.nIn * m.inCols] ∧
      q.nOut = p.nOut + x.nOut ∧ (x.nOut = m.nOut → q.outOffs = p.outOffs ++ [oo + m.nOut * m.outCols]) := by
  refine ⟨{ p with maps := p.maps ++ [x], inOffs := p.inOffs ++ [io + x.nIn * p.inCols]
                   outOffs := p.outOffs ++ [oo + x.nOut * p.outCols], nOut := p.nOut + x.nOut }, ?_, rfl, ?_, rfl, ?_⟩
  · unfold pushBack
    dsimp only
    have : p.fits x = true := by unfold fits; rw [decide_eq_true_eq]; exact hf
    rw [if_pos this, hi, ho]
  · rw [hin.1, hin.2.1, hf.1]
  · intro e; rw [hin.2.2, e]

example : ((ofVec [GMap.ofSizes 4 7, GMap.ofSizes 4 7] >>= fun p => p.pushBack (GMap.ofSizes 4 7)) >>= fun r =>
    .ok (r.1.inOffs, r.1.outOffs, r.1.nOut, r.2)) = .ok ([0, 7, 14], [0, 4, 8], 12, true) := by decide

/-- C46 is false for appending: the map with 9 output rows is placed at 0+9 although the rows of the first map
end at 4. -/
theorem C46_pushBack_fails : ((ofVec [GMap.ofSizes 4 7] >>= fun p => p.pushBack (GMap.ofSizes 9 7)) >>= fun r =>
    .ok (r.1.outOffs, r.2)) = .ok ([0, 9], true) ∧
    (ofVec [GMap.ofSizes 4 7, GMap.ofSizes 9 7] >>= fun p => .ok p.outOffs) = .ok [0, 4] := by decide

/-- C46 is false after a refused append: the map is in the pack without offsets. -/
theorem C46_pushBack_throw_fails : ((ofVec [GMap.ofSizes 4 7] >>= fun p => p.pushBack (GMap.ofSizes 4 8)) >>= fun r =>
    .ok (r.1.maps.length, r.1.outOffs.length, r.2)) = .ok (2, 1, false) := by decide

/-- Appending to an empty pack is refused or undefined. -/
theorem C46_pushBack_empty_fails (x : GMap) : GPack.pushBack { maps := [] } x = .ub ∨
    GPack.pushBack { maps := [] } x = .ok ({ maps := [x] }, false) := by
  unfold pushBack
  by_cases h : GPack.fits { maps := [] } x = true
  · left; rw [if_pos h]; rfl
  · right; rw [if_neg h]; rfl

end GPack

end Cnine
