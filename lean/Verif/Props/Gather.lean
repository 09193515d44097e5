import Verif.Lemmas.Gather

/-!
# C41–C43, C88: gather maps
-/

namespace Cnine

open HeadSpec GatherSpec

namespace GMap

/-- `ord` enumerates the members of `l` once each: a possible order of traversal of an `unordered_map` whose
keys are the members of `l`. -/
def Traversal (ord l : List Int) : Prop := ord.Nodup ∧ ∀ t, t ∈ ord ↔ t ∈ l

/-! ## C41 -/

theorem checkEdges_ok {nIn nOut : Int} : ∀ {m : List (Int × Int)}, (∀ e ∈ m, e.1 < nIn) → (∀ e ∈ m, e.2 < nOut) →
    checkEdges nIn nOut m = .ok ()
  | [], _, _ => rfl
  | e :: m, h1, h2 => by
    unfold checkEdges
    rw [Pool.assrt_pos (h1 e (by simp)), Res.ok_bind, Pool.assrt_pos (h2 e (by simp)), Res.ok_bind]
    exact checkEdges_ok (fun x hx => h1 x (List.mem_cons_of_mem _ hx)) (fun x hx => h2 x (List.mem_cons_of_mem _ hx))

theorem checkEdges_throw {nIn nOut : Int} : ∀ {m : List (Int × Int)}, (∃ e ∈ m, nIn ≤ e.1 ∨ nOut ≤ e.2) →
    checkEdges nIn nOut m = .throw
  | [], h => by obtain ⟨e, he, _⟩ := h; cases he
  | e :: m, h => by
    unfold checkEdges
    by_cases c1 : e.1 < nIn
    · rw [Pool.assrt_pos c1, Res.ok_bind]
      by_cases c2 : e.2 < nOut
      · rw [Pool.assrt_pos c2, Res.ok_bind]
        apply checkEdges_throw
        obtain ⟨x, hx, hc⟩ := h
        rcases List.mem_cons.mp hx with rfl | hx
        · omega
        · exact ⟨x, hx, hc⟩
      · rw [Pool.assrt_neg c2]; rfl
    · rw [Pool.assrt_neg c1]; rfl

theorem ofMatrix_holds (ord : List Int) (m : List (Int × Int)) (nIn nOut : Int)
    (ho : Traversal ord (m.map (·.2))) (hi : nIn = -1 ∨ ∀ e ∈ m, e.1 < nIn) (hu : nOut = -1 ∨ ∀ e ∈ m, e.2 < nOut) :
    ∃ g, ofMatrix ord m nIn nOut = .ok g ∧ g.sorted = false ∧
      g.nIn = (if nIn = -1 then bumpAll nIn (m.map (·.1)) else nIn) ∧
      g.nOut = (if nOut = -1 then bumpAll nOut (m.map (·.2)) else nOut) ∧
      g.Holds (ord.map fun t => (t, (m.filter fun e => e.2 = t).map (·.1))) := by
  have hm : ∀ e ∈ m, e.2 ∈ ord := fun e he => (ho.2 e.2).mpr (List.mem_map_of_mem he)
  have h1 : ∀ e ∈ m, e.1 < if nIn = -1 then bumpAll nIn (m.map (·.1)) else nIn := by
    intro e he
    split
    · exact (bumpAll_bound nIn _).bound _ (List.mem_map_of_mem he)
    · exact (hi.resolve_left ‹_›) e he
  have h2 : ∀ e ∈ m, e.2 < if nOut = -1 then bumpAll nOut (m.map (·.2)) else nOut := by
    intro e he
    split
    · exact (bumpAll_bound nOut _).bound _ (List.mem_map_of_mem he)
    · exact (hu.resolve_left ‹_›) e he
  obtain ⟨p, e1, e2⟩ := HL.C38_ofLengths false ord (ord.map fun t => countOf (m.map (·.2)) t) (by simp)
  rw [rowsAt_init] at e2
  obtain ⟨p', f1, f2⟩ := fillEdges_ok ho.1 m hm m [] rfl e2
  rw [rowsAt_full] at f2
  refine ⟨{ arr := p', nOut := if nOut = -1 then bumpAll nOut (m.map (·.2)) else nOut
            nIn := if nIn = -1 then bumpAll nIn (m.map (·.1)) else nIn }, ?_, rfl, rfl, rfl, f2⟩
  unfold ofMatrix
  dsimp only
  rw [checkEdges_ok h1 h2, Res.ok_bind]
  rw [List.map_map] at e1
  have e1' : HL.ofLengths false ord (ord.map fun t => (countOf (m.map (·.2)) t : Int)) = .ok p := e1
  rw [e1', Res.ok_bind, f1]
  rfl

/-- C41, edge matrix: every row (source, target) becomes an edge, with multiplicity, and the bounds hold. -/
theorem C41_ofMatrix (ord : List Int) (m : List (Int × Int)) (nIn nOut : Int)
    (ho : Traversal ord (m.map (·.2))) (hi : nIn = -1 ∨ ∀ e ∈ m, e.1 < nIn) (hu : nOut = -1 ∨ ∀ e ∈ m, e.2 < nOut) :
    ∃ g es, ofMatrix ord m nIn nOut = .ok g ∧ g.forEach = .ok es ∧ es.Perm (reversed m) ∧
      (∀ e ∈ es, e.1 < g.nOut ∧ e.2 < g.nIn) ∧
      (nIn = -1 → Bound (-1) (m.map (·.1)) g.nIn) ∧ (nIn ≠ -1 → g.nIn = nIn) ∧
      (nOut = -1 → Bound (-1) (m.map (·.2)) g.nOut) ∧ (nOut ≠ -1 → g.nOut = nOut) := by
  obtain ⟨g, e1, e2, e3, e4, e5⟩ := ofMatrix_holds ord m nIn nOut ho hi hu
  have hm : ∀ e ∈ m, e.2 ∈ ord := fun e he => (ho.2 e.2).mpr (List.mem_map_of_mem he)
  have hp := edges_group ho.1 m hm
  refine ⟨g, _, e1, forEach_ok e5, hp, ?_, ?_, ?_, ?_, ?_⟩
  · intro e he
    obtain ⟨x, hx, rfl⟩ := List.mem_map.mp (hp.mem_iff.mp he)
    dsimp only
    constructor
    · rw [e4]; split
      · exact (bumpAll_bound nOut _).bound _ (List.mem_map_of_mem hx)
      · exact (hu.resolve_left ‹_›) x hx
    · rw [e3]; split
      · exact (bumpAll_bound nIn _).bound _ (List.mem_map_of_mem hx)
      · exact (hi.resolve_left ‹_›) x hx
  · rintro rfl; rw [e3, if_pos rfl]; exact bumpAll_bound _ _
  · intro h; rw [e3, if_neg h]
  · rintro rfl; rw [e4, if_pos rfl]; exact bumpAll_bound _ _
  · intro h; rw [e4, if_neg h]

example : Traversal [7, 2] ([(1, 2), (4, 7), (1, 2), (0, 2)].map (·.2)) ∧
    (ofMatrix [7, 2] [(1, 2), (4, 7), (1, 2), (0, 2)] (-1) (-1) >>= fun g => g.forEach >>= fun es =>
      .ok (es, g.nIn, g.nOut)) = .ok ([(7, 4), (2, 1), (2, 1), (2, 0)], 5, 8) := by
  refine ⟨⟨by decide, fun t => ?_⟩, by decide⟩
  simp only [List.map_cons, List.map_nil, List.mem_cons, List.not_mem_nil, or_false]
  omega

/-- C41, edge matrix: an index at or above a given bound is reported. -/
theorem C41_ofMatrix_throw (ord : List Int) (m : List (Int × Int)) (nIn nOut : Int)
    (h : ∃ e ∈ m, (nIn ≠ -1 ∧ nIn ≤ e.1) ∨ (nOut ≠ -1 ∧ nOut ≤ e.2)) : ofMatrix ord m nIn nOut = .throw := by
  unfold ofMatrix
  dsimp only
  rw [checkEdges_throw]
  · rfl
  · obtain ⟨e, he, h⟩ := h
    refine ⟨e, he, ?_⟩
    rcases h with ⟨h1, h2⟩ | ⟨h1, h2⟩
    · left; rw [if_neg h1]; exact h2
    · right; rw [if_neg h1]; exact h2

example : ofMatrix [2] [(5, 2)] 5 3 = .throw := by decide

/-- C41, map of lists (also map of maps). -/
theorem C41_ofMap (x : List (Int × List Int)) (oc ic ocn icn : Nat) :
    ∃ g, ofMap x oc ic ocn icn = .ok g ∧ g.forEach = .ok (edges x) ∧ Bound 0 (x.map (·.1)) g.nOut ∧
      Bound 0 (x.flatMap (·.2)) g.nIn ∧ (∀ e ∈ edges x, e.1 < g.nOut ∧ e.2 < g.nIn) ∧
      g.inCols = ic ∧ g.outCols = oc ∧ g.inColsN = icn ∧ g.outColsN = ocn := by
  obtain ⟨p, p', e1, e2, e3⟩ := rows_of_reserve x (roomOf x)
  have hg : ∃ g, ofMap x oc ic ocn icn = .ok g ∧ g.arr = p' ∧ g.nOut = bumpAll 0 (x.map (·.1)) ∧
      g.nIn = bumpAll 0 (x.flatMap (·.2)) ∧ g.inCols = ic ∧ g.outCols = oc ∧ g.inColsN = icn ∧ g.outColsN = ocn := by
    unfold ofMap
    rw [e1, Res.ok_bind, e2]
    exact ⟨_, rfl, rfl, rfl, rfl, rfl, rfl, rfl, rfl⟩
  obtain ⟨g, hg, rfl, h1, h2, h3⟩ := hg
  refine ⟨g, hg, forEach_ok e3, ?_, ?_, ?_, h3⟩ <;> (try rw [h1]) <;> (try rw [h2])
  · exact bumpAll_bound _ _
  · exact bumpAll_bound _ _
  intro e he
  obtain ⟨r, hr, he⟩ := List.mem_flatMap.mp he
  obtain ⟨s, hs, rfl⟩ := List.mem_map.mp he
  exact ⟨(bumpAll_bound 0 _).bound _ (List.mem_map_of_mem hr),
    (bumpAll_bound 0 _).bound _ (List.mem_flatMap.mpr ⟨r, hr, hs⟩)⟩

example : (ofMap [(4, [1, 1, 0]), (2, []), (0, [9])] 1 2 1 2 >>= fun g => g.forEach >>= fun es =>
    .ok (es, g.nIn, g.nOut)) = .ok ([(4, 1), (4, 1), (4, 0), (0, 9)], 10, 5) := by decide

theorem ofLengths_full (ord : List Int) (m : List (Int × Int)) :
    ∃ p, HL.ofLengths true ord (ord.map fun t => (countOf (m.map (·.2)) t : Int)) = .ok p ∧
      HL.Holds p (ord.map fun t => ⟨some t, countOf (m.map (·.2)) t, List.replicate (countOf (m.map (·.2)) t) none⟩) := by
  obtain ⟨p, e1, e2⟩ := HL.C38_ofLengths true ord (ord.map fun t => countOf (m.map (·.2)) t) (by simp)
  refine ⟨p, ?_, ?_⟩
  · rw [List.map_map] at e1; exact e1
  · rw [List.zip_map_right, List.map_map] at e2
    have : ord.zip ord = ord.map fun t => (t, t) := by
      clear e1 e2
      induction ord with
      | nil => rfl
      | cons a l ih => simp [ih]
    rw [this, List.map_map] at e2
    exact e2

theorem append_full {ord : List Int} (m : List (Int × Int)) {p : Pool Int} (hp : HL.Holds p
      (ord.map fun t => ⟨some t, countOf (m.map (·.2)) t, List.replicate (countOf (m.map (·.2)) t) none⟩))
    {t : Int} (ht : t ∈ ord) (s : Int) : HL.append p (ord.idxOf t : Nat) s = .throw := by
  have := (HL.step_spec (.append (ord.idxOf t) s) hp).2 (by
    simp only [HeadSpec.step, List.getElem?_map, List.getElem?_idxOf ht, Option.map_some]
    rw [if_neg (by simp)])
  exact this

/-- C41 is false for the constructor from vectors of sources and targets: with at least one edge it always
throws, since the rows it allocates are already full when the sources are appended. -/
theorem C41_ofArrays_fails (ord sources targets : List Int) (hl : sources.length = targets.length)
    (hne : sources ≠ []) (ho : Traversal ord targets) : ofArrays ord sources targets = .throw := by
  match sources, targets, hl, hne with
  | s :: ss, t :: ts, hl, _ =>
    have hz : ((s :: ss).zip (t :: ts)).map (·.2) = t :: ts := by
      rw [← List.unzip_snd, List.unzip_zip hl]
    obtain ⟨p, e1, e2⟩ := ofLengths_full ord ((s :: ss).zip (t :: ts))
    rw [hz] at e1
    unfold ofArrays
    rw [Pool.assrt_pos hl, Res.ok_bind, e1, Res.ok_bind]
    rw [List.zip_cons_cons] at e2 ⊢
    unfold fillEdges
    dsimp only
    rw [append_full _ e2 ((ho.2 t).mpr (by simp)) s]
    rfl

example : ofArrays [2] [5] [2] = .throw := by decide

/-- Without edges that constructor gives the empty map. -/
theorem C41_ofArrays_empty : ∃ g, ofArrays [] [] [] = .ok g ∧ g.forEach = .ok [] ∧ g.nIn = 0 ∧ g.nOut = 0 :=
  ⟨_, rfl, by decide, rfl, rfl⟩

/-- The edge matrix constructor of an empty matrix leaves the number of rows at -1. -/
theorem C41_empty_bound_fails : ∃ g, ofMatrix [] [] (-1) (-1) = .ok g ∧ g.nIn = -1 ∧ g.nOut = -1 :=
  ⟨_, rfl, rfl, rfl⟩

/-- A negative index is accepted, below the range of rows 0, … , n-1. -/
theorem C41_negative_fails : (ofMatrix [2] [(-4, 2)] 3 3 >>= forEach) = .ok [(2, -4)] := by decide

/-! ## Maps made by the operations -/

/-- Gather maps obtained from the constructors by appending rows, inverting and sorting. -/
inductive Made : GMap → Prop
  | ofSizes (nOut nIn : Int) : Made (GMap.ofSizes nOut nIn)
  | ofMatrix {ord m nIn nOut g} (ho : Traversal ord (m.map (·.2)))
      (h : GMap.ofMatrix ord m nIn nOut = .ok g) : Made g
  | ofMap {x oc ic ocn icn g} (h : GMap.ofMap x oc ic ocn icn = .ok g) : Made g
  | pushVec {g t v g'} (hg : Made g) (h : GMap.pushVec g t v = .ok g') : Made g'
  | makeInv {g g'} (hg : Made g) (h : GMap.makeInv g = .ok g') : Made g'
  | sort {g g'} (hg : Made g) (h : GMap.sort g = .ok g') : Made g'

/-- Rows in order of non-increasing length. -/
def Descending (rows : List (Int × List Int)) : Prop := rows.Pairwise fun a b => b.2.length ≤ a.2.length

theorem Made.holds {g : GMap} (h : Made g) : ∃ rows, g.Holds rows ∧ (g.sorted = true → Descending rows) := by
  induction h with
  | ofSizes nOut nIn => exact ⟨[], HL.holds_empty, by simp [GMap.ofSizes]⟩
  | @ofMatrix ord m nIn nOut g ho h =>
    by_cases hi : nIn = -1 ∨ ∀ e ∈ m, e.1 < nIn
    · by_cases hu : nOut = -1 ∨ ∀ e ∈ m, e.2 < nOut
      · obtain ⟨g', e1, e2, _, _, e5⟩ := ofMatrix_holds ord m nIn nOut ho hi hu
        rw [h] at e1
        cases e1
        exact ⟨_, e5, by simp [e2]⟩
      · rw [C41_ofMatrix_throw] at h
        · cases h
        · simp only [not_or, not_forall, Int.not_lt] at hu
          obtain ⟨h1, e, he, h2⟩ := hu
          exact ⟨e, he, Or.inr ⟨h1, h2⟩⟩
    · rw [C41_ofMatrix_throw] at h
      · cases h
      · simp only [not_or, not_forall, Int.not_lt] at hi
        obtain ⟨h1, e, he, h2⟩ := hi
        exact ⟨e, he, Or.inl ⟨h1, h2⟩⟩
  | @ofMap x oc ic ocn icn g h =>
    obtain ⟨p, p', e1, e2, e3⟩ := rows_of_reserve x (roomOf x)
    unfold GMap.ofMap at h
    rw [e1, Res.ok_bind, e2, Res.ok_bind] at h
    cases h
    exact ⟨x, e3, by simp⟩
  | @pushVec g t v g' _ h ih =>
    obtain ⟨rows, hr, _⟩ := ih
    obtain ⟨p1, e1, e2⟩ := (HL.step_spec (.pushVec t v) hr).1 _ rfl
    have e1' : HL.pushVec g.arr t v = .ok p1 := e1
    unfold GMap.pushVec at h
    rw [e1', Res.ok_bind] at h
    cases h
    refine ⟨rows ++ [(t, v)], ?_, by simp⟩
    unfold Holds
    rw [List.map_append]
    exact e2
  | makeInv _ h ih =>
    obtain ⟨rows, hr, _⟩ := ih
    obtain ⟨g', e1, e2, _⟩ := makeInv_ok hr
    have h' := h
    rw [e1] at h
    cases h
    refine ⟨_, e2, ?_⟩
    unfold GMap.makeInv at h'
    intro hs
    obtain ⟨es, _, h'⟩ := Res.bind_eq_ok.mp h'
    dsimp only at h'
    obtain ⟨p, _, h'⟩ := Res.bind_eq_ok.mp h'
    obtain ⟨p, _, h'⟩ := Res.bind_eq_ok.mp h'
    cases h'
    cases hs
  | @sort g g' _ h ih =>
    obtain ⟨rows, hr, hs⟩ := ih
    cases hc : g.sorted with
    | true =>
      unfold GMap.sort at h
      rw [hc, if_pos rfl] at h
      cases h
      exact ⟨rows, hr, hs⟩
    | false =>
      obtain ⟨g', e1, _, _, _, e5⟩ := sort_ok hr hc
      rw [e1] at h
      cases h
      exact ⟨_, e5, fun _ => pick_pairwise rows _ (groups_sorted true rows) (by simpa using groups_group true rows)⟩

/-- `for_each` always succeeds on such maps, and `n_ops()` is the number of edges. -/
theorem C41_nOps {g : GMap} (h : Made g) : ∃ es, g.forEach = .ok es ∧ g.nOps = es.length := by
  obtain ⟨rows, hr, _⟩ := h.holds
  refine ⟨_, forEach_ok hr, ?_⟩
  have := (HL.Holds.reads hr).total
  unfold nOps
  unfold HL.total Pool.total at this
  rw [this, List.map_map]
  unfold edges
  rw [List.length_flatMap]
  simp [Function.comp_def, HRow.full]

example : (ofMap [(4, [1, 1, 0]), (2, []), (0, [9])] 1 1 1 1 >>= fun g => .ok g.nOps) = .ok 4 := by decide

/-! ## C42 -/

/-- C42: the inverse has exactly the reversed edges, with multiplicity, by increasing target; rows and columns
are swapped. -/
theorem C42_inv {g : GMap} (h : Made g) : ∃ es g' es', g.forEach = .ok es ∧ g.makeInv = .ok g' ∧
    g'.forEach = .ok es' ∧ es'.Perm (reversed es) ∧ es'.Pairwise (fun a b => a.1 ≤ b.1) ∧
    g'.nOut = g.nIn ∧ g'.nIn = g.nOut ∧ g'.inCols = g.outCols ∧ g'.outCols = g.inCols ∧
    g'.inColsN = g.outColsN ∧ g'.outColsN = g.inColsN ∧ Made g' := by
  obtain ⟨rows, hr, _⟩ := h.holds
  obtain ⟨g', e1, e2, e3⟩ := makeInv_ok hr
  refine ⟨_, g', _, forEach_ok hr, e1, forEach_ok e2, invMap_edges _, ?_, e3.1, e3.2.1, e3.2.2.1, e3.2.2.2.1,
    e3.2.2.2.2.1, e3.2.2.2.2.2, h.makeInv e1⟩
  unfold edges
  rw [List.pairwise_flatMap]
  refine ⟨?_, ?_⟩
  · intro a _
    rw [List.pairwise_map]
    exact List.Pairwise.imp (fun _ => Int.le_refl _) (List.pairwise_of_forall (R := fun _ _ => True) (fun _ _ => trivial))
  · refine (invMap_sorted _).imp ?_
    intro a b hab x hx y hy
    obtain ⟨_, _, rfl⟩ := List.mem_map.mp hx
    obtain ⟨_, _, rfl⟩ := List.mem_map.mp hy
    dsimp only
    omega

theorem reversed_reversed (es : List (Int × Int)) : reversed (reversed es) = es := by
  unfold reversed
  rw [List.map_map]
  simp [Function.comp_def]

/-- C42: inverting twice gives back the edges and the shape. -/
theorem C42_inv_inv {g : GMap} (h : Made g) : ∃ es g' g'' es'', g.forEach = .ok es ∧ g.makeInv = .ok g' ∧
    g'.makeInv = .ok g'' ∧ g''.forEach = .ok es'' ∧ es''.Perm es ∧ g''.nOut = g.nOut ∧ g''.nIn = g.nIn := by
  obtain ⟨es, g', es', a1, a2, a3, a4, _, a5, a6, _, _, _, _, a7⟩ := C42_inv h
  obtain ⟨es2, g'', es'', b1, b2, b3, b4, _, b5, b6, _⟩ := C42_inv a7
  rw [a3] at b1
  cases b1
  refine ⟨es, g', g'', es'', a1, a2, b2, b3, ?_, by rw [b5, a6], by rw [b6, a5]⟩
  rw [← reversed_reversed es]
  exact b4.trans (a4.map _)

/-- The map 0 ← 1,2,1; 3 ← 2. -/
def exMap : Res GMap := ofMap [(3, [2]), (0, [1, 2, 1])] 1 1 1 1

example : (exMap >>= fun g => g.makeInv >>= fun g' => g'.forEach >>= fun es => .ok (es, g'.nOut, g'.nIn)) =
    .ok ([(1, 0), (1, 0), (2, 3), (2, 0)], 3, 4) := by decide

/-- C42: an inverse computed before is returned again. -/
theorem C42_cached (o : GObj) (o' : GObj) (g : GMap) (h : o.getInv = .ok (o', g)) :
    o'.map = o.map ∧ o'.getInv = .ok (o', g) := by
  unfold GObj.getInv at h
  split at h
  · rename_i i hi
    cases h
    exact ⟨rfl, by unfold GObj.getInv; rw [hi]⟩
  · obtain ⟨i, _, h⟩ := Res.bind_eq_ok.mp h
    cases h
    exact ⟨rfl, rfl⟩

/-- C42: a cached inverse stays valid under sorting. -/
theorem C42_cached_sort {o : GObj} (hm : Made o.map) {o1 o2 : GObj} {g g2 : GMap} (h1 : o.getInv = .ok (o1, g))
    (h0 : o.inv = none) (h2 : o1.sort = .ok o2) (h3 : o2.getInv = .ok (o2, g2)) :
    ∃ es es', o2.map.forEach = .ok es ∧ g2.forEach = .ok es' ∧ es'.Perm (reversed es) := by
  obtain ⟨es, g', es', a1, a2, a3, a4, _⟩ := C42_inv hm
  unfold GObj.getInv at h1
  rw [h0] at h1
  dsimp only at h1
  rw [a2, Res.ok_bind] at h1
  cases h1
  unfold GObj.sort at h2
  dsimp only at h2
  obtain ⟨gs, hs, h2⟩ := Res.bind_eq_ok.mp h2
  cases h2
  unfold GObj.getInv at h3
  dsimp only at h3
  cases h3
  obtain ⟨rows, hr, _⟩ := hm.holds
  rw [forEach_ok hr] at a1
  cases a1
  cases hc : o.map.sorted with
  | true =>
    unfold GMap.sort at hs
    rw [hc, if_pos rfl] at hs
    cases hs
    exact ⟨_, _, forEach_ok hr, a3, a4⟩
  | false =>
    obtain ⟨g', e1, _, _, _, e5⟩ := sort_ok hr hc
    rw [e1] at hs
    cases hs
    refine ⟨_, _, forEach_ok e5, a3, a4.trans ?_⟩
    exact (((pick_groups_perm true rows).flatMap_right _).map _).symm

example : ∃ o1 o2 g, (exMap >>= fun m => (GObj.mk m none).getInv) = .ok (o1, g) ∧ o1.sort = .ok o2 ∧
    o2.getInv = .ok (o2, g) := ⟨_, _, _, rfl, rfl, rfl⟩

/-- C42 is false once rows are appended after the inverse was computed: the old inverse is returned. -/
theorem C42_stale_fails : ∃ o1 o2 g g', (exMap >>= fun m => (GObj.mk m none).getInv) = .ok (o1, g) ∧
    o1.pushVec 2 [0] = .ok o2 ∧ o2.getInv = .ok (o2, g') ∧ g' = g ∧
    o2.map.forEach = .ok [(3, 2), (0, 1), (0, 2), (0, 1), (2, 0)] ∧
    g'.forEach = .ok [(1, 0), (1, 0), (2, 3), (2, 0)] :=
  ⟨_, _, _, _, rfl, rfl, rfl, rfl, by decide, by decide⟩

/-- In general an append never changes what `inv()` returns once it has been called. -/
theorem C42_stale (o o1 o2 : GObj) (g : GMap) (t : Int) (v : List Int) (h1 : o.getInv = .ok (o1, g))
    (h2 : o1.pushVec t v = .ok o2) : o2.getInv = .ok (o2, g) := by
  have hi : o1.inv = some g := by
    unfold GObj.getInv at h1
    split at h1
    · rename_i i hi; cases h1; exact hi
    · obtain ⟨i, _, h1⟩ := Res.bind_eq_ok.mp h1; cases h1; rfl
  unfold GObj.pushVec at h2
  obtain ⟨g', _, h2⟩ := Res.bind_eq_ok.mp h2
  cases h2
  unfold GObj.getInv
  dsimp only
  rw [hi]

/-! ## C43 -/

/-- C43: sorting keeps the rows, each with its ordered sources, and puts them in order of non-increasing
length. -/
theorem C43_sort {g : GMap} (h : Made g) : ∃ rows g' rows', HL.forEach g.arr = .ok rows ∧ g.sort = .ok g' ∧
    HL.forEach g'.arr = .ok rows' ∧ rows'.Perm rows ∧ Descending rows' ∧ g'.nOut = g.nOut ∧ g'.nIn = g.nIn := by
  obtain ⟨rows, hr, hd⟩ := h.holds
  cases hc : g.sorted with
  | true =>
    refine ⟨rows, g, rows, HL.forEach_ok _ _ hr, ?_, HL.forEach_ok _ _ hr, List.Perm.refl _, hd hc, rfl, rfl⟩
    unfold sort
    rw [hc, if_pos rfl]
  | false =>
    obtain ⟨g', e1, _, e3, e4, e5⟩ := sort_ok hr hc
    exact ⟨rows, g', _, HL.forEach_ok _ _ hr, e1, HL.forEach_ok _ _ e5, pick_groups_perm true rows,
      pick_pairwise rows _ (groups_sorted true rows) (by simpa using groups_group true rows), e3, e4⟩

example : (exMap >>= fun g => g.pushVec 5 [0, 1] >>= fun g => g.sort >>= fun g => HL.forEach g.arr) =
    .ok [(0, [1, 2, 1]), (5, [0, 1]), (3, [2])] := by decide

/-- C43: the edges are kept. -/
theorem C43_sort_edges {g : GMap} (h : Made g) : ∃ es g' es', g.forEach = .ok es ∧ g.sort = .ok g' ∧
    g'.forEach = .ok es' ∧ es'.Perm es := by
  obtain ⟨rows, hr, _⟩ := h.holds
  cases hc : g.sorted with
  | true =>
    refine ⟨_, g, _, forEach_ok hr, ?_, forEach_ok hr, List.Perm.refl _⟩
    unfold sort
    rw [hc, if_pos rfl]
  | false =>
    obtain ⟨g', e1, _, e3, e4, e5⟩ := sort_ok hr hc
    exact ⟨_, g', _, forEach_ok hr, e1, forEach_ok e5, (pick_groups_perm true rows).flatMap_right _⟩

/-! ## C88: grading -/

theorem copyGroups'_ok {g : GMap} {rows : List (Int × List Int)} (h : g.Holds rows) (minSize : Int) :
    ∀ (m : List (Int × List Int)) (fs : List Fixedk) {R : List (HRow Int)} {p : Pool Int},
    (∀ a ∈ m, Group rows a.1 a.2) → HL.Holds p R →
    ∃ p' fs', gradeGroups g minSize m p fs = .ok (p', fs ++ fs') ∧
      fs' = (m.filter fun a => bigGroup a.2 minSize).map (fun a => Fixedk.new a.2.length a.1.toNat) ∧
      HL.Holds p' (R ++ (pick rows ((m.filter fun a => !bigGroup a.2 minSize).flatMap (·.2))).map fun r =>
        HRow.full r.1 r.2) := by
  intro m
  induction m with
  | nil => intro fs R p _ hp; exact ⟨p, [], by simp [gradeGroups], rfl, by simpa [pick] using hp⟩
  | cons a m ih =>
    obtain ⟨k, qs⟩ := a
    intro fs R p hg hp
    unfold gradeGroups
    cases hb : bigGroup qs minSize with
    | true =>
      rw [if_pos rfl]
      have hf : ∀ (l : List Int) (f : Fixedk), Group rows k l → gradeFill g l f = .ok f := by
        intro l
        induction l with
        | nil => intro f _; rfl
        | cons q l ihl =>
          intro f hgl
          obtain ⟨j, r, rfl, hj, e⟩ := hgl q (by simp)
          have hlt := (List.getElem?_eq_some_iff.mp hj).1
          have hm : ((rows.map fun r => HRow.full r.1 r.2).map HL.toRow)[j]? = some (HL.toRow (HRow.full r.1 r.2)) := by
            rw [List.getElem?_map, List.getElem?_map, hj]; rfl
          have hz : g.arr.size = rows.length := by simpa using (HL.Holds.reads h).size
          unfold gradeFill
          unfold Pool.offset Pool.sizeOf
          rw [Pool.assrt_pos (by omega), Res.ok_bind, Pool.Part.off_at h hm, Res.ok_bind, Res.ok_bind,
            Pool.Part.len_at h hm, Res.ok_bind]
          exact ihl f (fun x hx => hgl x (List.mem_cons_of_mem _ hx))
      rw [hf qs _ (hg (k, qs) (by simp)), Res.ok_bind]
      obtain ⟨p', fs', e1, e2, e3⟩ := ih (fs ++ [Fixedk.new qs.length k.toNat])
        (fun x hx => hg x (List.mem_cons_of_mem _ hx)) hp
      refine ⟨p', Fixedk.new qs.length k.toNat :: fs', by simpa using e1, ?_, ?_⟩
      · simp [hb, e2]
      · simpa [hb] using e3
    | false =>
      obtain ⟨p1, e1, e2⟩ := copyRows_ok h k qs (hg (k, qs) (by simp)) hp
      obtain ⟨p', fs', f1, f2, f3⟩ := ih fs (fun x hx => hg x (List.mem_cons_of_mem _ hx)) e2
      refine ⟨p', fs', ?_, ?_, ?_⟩
      · simp only [Bool.false_eq_true, if_false]
        rw [e1, Res.ok_bind, f1]
      · simp [hb, f2]
      · simpa [hb, pick] using f3

theorem grade_ok {g : GMap} {rows : List (Int × List Int)} (h : g.Holds rows) (minSize : Int) :
    ∃ g', g.grade minSize = .ok (g', ((groups false rows).filter fun a => bigGroup a.2 minSize).map
        (fun a => Fixedk.new a.2.length a.1.toNat)) ∧
      g'.Holds (pick rows (((groups false rows).filter fun a => !bigGroup a.2 minSize).flatMap (·.2))) := by
  have hz : g.arr.size = rows.length := by simpa using (HL.Holds.reads h).size
  have e3 : lengthsFrom false g (0 : Int) rows.length [] = .ok (groups false rows) := by
    have := lengthsFrom_ok false h rows.length 0 [] (by omega)
    rw [← List.range_eq_range'] at this
    exact this
  obtain ⟨p, e1, e2⟩ := Pool.reserve_holds (Pool.holds_empty (α := Int)) (remSize minSize (groups false rows))
  obtain ⟨p', fs', f1, f2, f3⟩ := copyGroups'_ok h minSize (groups false rows) [] (R := []) (p := p)
    (by simpa using groups_group false rows) e2
  refine ⟨{ g with arr := p' }, ?_, ?_⟩
  · unfold grade
    rw [hz, Int.toNat_natCast, e3, Res.ok_bind, e1, Res.ok_bind, f1, Res.ok_bind, f2]
    rfl
  · rw [List.nil_append] at f3; exact f3

theorem le_sum {n : Nat} : ∀ {l : List Nat}, n ∈ l → n ≤ l.sum
  | a :: l, h => by
    rw [List.sum_cons]
    rcases List.mem_cons.mp h with rfl | h
    · omega
    · have := le_sum h; omega

theorem new_edges (n k : Nat) : ∀ e ∈ (Fixedk.new n k).edges, e = (0, 0) := by
  intro e he
  unfold Fixedk.edges Fixedk.new at he
  simp only [List.mem_flatMap, List.mem_map] at he
  obtain ⟨i, _, j, _, rfl⟩ := he
  simp only [List.getD_eq_getElem?_getD, List.getElem?_replicate, Prod.mk.injEq]
  constructor <;> (split <;> rfl)

/-- C88 in the case that no length occurs `min_size` times: nothing is moved into fixed-k maps and all edges
are kept. -/
theorem C88_grade_partial {g : GMap} (h : Made g) (minSize : Int) (hm : minSize < 0 ∨ g.arr.size < minSize) :
    ∃ es g' es', g.forEach = .ok es ∧ g.grade minSize = .ok (g', []) ∧ g'.forEach = .ok es' ∧ es'.Perm es := by
  obtain ⟨rows, hr, _⟩ := h.holds
  obtain ⟨g', e1, e2⟩ := grade_ok hr minSize
  have hz : g.arr.size = rows.length := by simpa using (HL.Holds.reads hr).size
  have hb : ∀ a ∈ groups false rows, bigGroup a.2 minSize = false := by
    intro a ha
    unfold bigGroup
    rw [decide_eq_false_iff_not]
    rintro ⟨h1, h2⟩
    have h3 : a.2.length ≤ ((groups false rows).flatMap (·.2)).length := by
      rw [List.length_flatMap]
      exact le_sum (List.mem_map_of_mem ha)
    rw [(groups_perm false rows).length_eq, List.length_map, List.length_range] at h3
    omega
  have f1 : (groups false rows).filter (fun a => bigGroup a.2 minSize) = [] := by
    rw [List.filter_eq_nil_iff]
    intro a ha hc
    rw [hb a ha] at hc
    cases hc
  have f2 : (groups false rows).filter (fun a => !bigGroup a.2 minSize) = groups false rows := by
    rw [List.filter_eq_self]
    intro a ha
    rw [hb a ha]; rfl
  rw [f1] at e1
  rw [f2] at e2
  exact ⟨_, g', _, forEach_ok hr, e1, forEach_ok e2, (pick_groups_perm false rows).flatMap_right _⟩

example : (exMap >>= fun g => g.grade 3 >>= fun r => r.1.forEach >>= fun es => .ok (es, r.2.length)) =
    .ok ([(3, 2), (0, 1), (0, 2), (0, 1)], 0) := by decide

/-- C88 is false: every edge moved into a fixed-k map becomes the edge (0,0), for all maps. -/
theorem C88_grade_zero {g : GMap} (h : Made g) (minSize : Int) : ∃ g' fs, g.grade minSize = .ok (g', fs) ∧
    ∀ f ∈ fs, ∀ e ∈ f.edges, e = (0, 0) := by
  obtain ⟨rows, hr, _⟩ := h.holds
  obtain ⟨g', e1, _⟩ := grade_ok hr minSize
  refine ⟨g', _, e1, ?_⟩
  intro f hf
  obtain ⟨a, _, rfl⟩ := List.mem_map.mp hf
  exact new_edges _ _

/-- C88 is false: a witness, with the default argument 0. -/
theorem C88_grade_fails : ∃ g g' f1 f2, exMap = .ok g ∧ g.forEach = .ok [(3, 2), (0, 1), (0, 2), (0, 1)] ∧
    g.grade 0 = .ok (g', [f1, f2]) ∧ g'.forEach = .ok [] ∧
    f1.edges = [(0, 0)] ∧ f2.edges = [(0, 0), (0, 0), (0, 0)] :=
  ⟨_, _, _, _, rfl, by decide, rfl, by decide, by decide, by decide⟩

end GMap

end Cnine
