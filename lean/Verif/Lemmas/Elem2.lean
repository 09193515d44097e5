import Verif.Lemmas.Elem
import Verif.Props.ViewFuse

namespace Cnine

variable {α : Type _}

open View

theorem forEachIx_eq {σ : Type _} (v : View) (hwf : v.WF) (hne : v.dims ≠ []) (s : σ)
    (f : List Nat → Nat → σ → Res σ) :
    v.forEachIx s f = Res.forM (allIndices v.dims) s (fun s ix => f ix (v.cell ix) s) := by
  unfold forEachIx
  rw [foreachIndex_eq hne, Res.ok_bind]
  apply forM_congr
  intro ix hix s
  have := (mem_allIndices.1 hix).length
  have hwf' : v.strides.length = v.dims.length := hwf
  rw [addr_eq v ix (by omega), Res.ok_bind]

theorem pairLoops_eq (cell : Buf α → Nat → Nat → Res (Buf α)) (r x : View) (hr : r.WF) (hx : x.WF)
    (hd : r.dims = x.dims) (hne : r.dims ≠ []) (m : Buf α) :
    pairLoops cell r x m = Res.forM (pairCells r x) m (fun m p => cell m p.1 p.2) := by
  have key := nest_eq (fun (p : Nat × Nat) (m : Buf α) => cell m p.1 p.2)
    (r.dims.zip (r.strides.zip x.strides)) (r.off, x.off) m
  have h2 := pairCells_eq r x hr hx hd
  obtain ⟨o, D, S⟩ := r
  obtain ⟨p, D', T⟩ := x
  simp only [WF] at hr hx hd hne key
  subst hd
  match D, S, T, hr, hx with
  | [n0], [rs0], [xs0], _, _ =>
    rw [h2, forM_map]; exact key
  | [n0, n1], [rs0, rs1], [xs0, xs1], _, _ =>
    rw [h2, forM_map]; exact key
  | [n0, n1, n2], [rs0, rs1, rs2], [xs0, xs1, xs2], _, _ =>
    rw [h2, forM_map]; exact key
  | [n0, n1, n2, n3], [rs0, rs1, rs2, rs3], [xs0, xs1, xs2, xs3], _, _ =>
    rw [h2, forM_map]; exact key
  | n0 :: n1 :: n2 :: n3 :: n4 :: ns, S, T, hr, hx =>
    simp only [pairLoops]
    rw [forEachIx_eq _ (by exact hr) (by simp), pairCells, forM_map]
    apply forM_congr
    intro ix hix m
    have := (mem_allIndices.1 hix).length
    rw [addr_eq _ ix (by simp only at *; omega), Res.ok_bind]
  | [], _, _, _, _ => exact absurd rfl hne

theorem stdCopy_eq (m : Buf α) (src n dst : Nat) (h : ¬ (src ≤ dst ∧ dst < src + n)) :
    stdCopy m src n dst =
      runUpd (fun _ b => b) ((axCells [(n, ((1, 1) : Nat × Nat))]).map fun p => (dst + p.1, src + p.2)) m := by
  have h1 := nest_eq (fun (p : Nat × Nat) m => updCell (fun _ b => b) m (dst + p.1) (src + p.2))
    [(n, ((1, 1) : Nat × Nat))] (0, 0) m
  rw [stdCopy, if_neg h, runUpd, forM_map]
  simp only [nest, Prod.fst_add, Prod.snd_add, zero_add] at h1
  rw [← h1]
  simp only [copyCell_eq]
  congr 1
  funext i m
  simp

theorem rowCopies_eq (r x : View) (hr : r.WF) (hx : x.WF) (hd : r.dims = x.dims)
    (h2 : 2 ≤ r.dims.length) (h4 : r.dims.length ≤ 4) (hap : r.Apart x) (n : Nat)
    (hl : r.strides.getLast? = some 1) (hl' : x.strides.getLast? = some 1) (hn : r.dims.getLast? = some n)
    (hn0 : 0 < n) (m : Buf α) :
    rowCopies r x m = runUpd (fun _ b => b) (pairCells r x) m := by
  -- split off the last axis
  obtain ⟨o, D, S⟩ := r
  obtain ⟨p, D', T⟩ := x
  simp only [WF] at hr hx hd h2 h4 hl hl' hn
  subst hd
  obtain ⟨D, rfl⟩ := List.getLast?_eq_some_iff.1 hn
  obtain ⟨S, rfl⟩ := List.getLast?_eq_some_iff.1 hl
  obtain ⟨T, rfl⟩ := List.getLast?_eq_some_iff.1 hl'
  simp only [List.length_append, List.length_cons, List.length_nil, Nat.add_right_cancel_iff] at hr hx h2 h4
  have e0 := pairCells_eq ⟨o, D ++ [n], S ++ [1]⟩ ⟨p, D ++ [n], T ++ [1]⟩ (by simp [WF, hr]) (by simp [WF, hx]) rfl
  have ez : (D ++ [n]).zip ((S ++ [1]).zip (T ++ [1])) = D.zip (S.zip T) ++ [(n, ((1, 1) : Nat × Nat))] := by
    rw [List.zip_append (by omega), List.zip_append (by simp; omega)]; rfl
  have key : Res.forM (axCells (D.zip (S.zip T))) m
        (fun m c => stdCopy m (p + c.2) n (o + c.1)) =
      runUpd (fun _ b => b) (pairCells ⟨o, D ++ [n], S ++ [1]⟩ ⟨p, D ++ [n], T ++ [1]⟩) m := by
    rw [e0]
    simp only
    rw [ez, axCells_append, runUpd, forM_map, forM_flatMap]
    apply forM_congr
    intro c hc m
    have hnov : ¬ (p + c.2 ≤ o + c.1 ∧ o + c.1 < p + c.2 + n) := by
      rintro ⟨h1, h3⟩
      have mem : ∀ k, k < n → (o + c.1 + k, p + c.2 + k) ∈ pairCells ⟨o, D ++ [n], S ++ [1]⟩ ⟨p, D ++ [n], T ++ [1]⟩ := by
        intro k hk
        rw [e0, List.mem_map]
        refine ⟨c + k • ((1, 1) : Nat × Nat), ?_, ?_⟩
        · simp only
          rw [ez, axCells_append, List.mem_flatMap]
          refine ⟨c, hc, List.mem_map.2 ⟨_, ?_, rfl⟩⟩
          rw [axCells_cons, List.mem_flatMap]
          exact ⟨k, List.mem_range.2 hk, by simp [axCells]⟩
        · simp [Nat.add_assoc]
      have m1 := mem 0 hn0
      have m2 := mem (o + c.1 - (p + c.2)) (by omega)
      simp only [pairCells, List.mem_map] at m1 m2
      obtain ⟨ix, hix, e1⟩ := m1
      obtain ⟨jx, hjx, e2⟩ := m2
      have := hap ix jx (mem_allIndices.1 hix) (mem_allIndices.1 hjx)
      rw [Prod.mk.injEq] at e1 e2
      apply this
      rw [e1.1, e2.2]; omega
    rw [stdCopy_eq _ _ _ _ hnov, runUpd, forM_map, forM_map]
    apply forM_congr
    intro d _ m
    simp [Nat.add_assoc]
  rw [← key]
  have nk := nest_eq (fun (q : Nat × Nat) (m : Buf α) => stdCopy m q.2 n q.1) (D.zip (S.zip T)) (o, p) m
  refine Eq.trans ?_ nk
  match D, S, T, hr, hx with
  | [n0], [rs0], [xs0], _, _ => rfl
  | [n0, n1], [rs0, rs1], [xs0, xs1], _, _ => rfl
  | [n0, n1, n2], [rs0, rs1, rs2], [xs0, xs1, xs2], _, _ => rfl
  | [], _, _, _, _ => simp at h2
  | _ :: _ :: _ :: _ :: _, _, _, _, _ => simp at h4

theorem pairCells_fst (r x : View) : (pairCells r x).map Prod.fst = r.cells := by
  simp [pairCells, View.cells, Function.comp_def]

theorem cells_nodup (r : View) (h : r.Distinct) : r.cells.Nodup := by
  unfold View.cells
  exact List.Nodup.map_on (fun a ha b hb e => h a b (mem_allIndices.1 ha) (mem_allIndices.1 hb) e) (allIndices_nodup _)

/-- Any order of element updates gives the specified result. -/
theorem upd_updated (op : α → α → α) (r x : View) (hd : r.dims = x.dims) (hdist : r.Distinct)
    (hal : r.Aligned x) (m : Buf α) (hra : r.Alloc m) (hxa : x.Alloc m)
    (l : List (Nat × Nat)) (hp : l.Perm (pairCells r x)) :
    ∃ m', runUpd op l m = .ok m' ∧
      Updated r (fun ix => do let a ← r.val m ix; let b ← x.val m ix; pure (op a b)) m m' := by
  have hmem : ∀ p ∈ l, ∃ ix, InRange ix r.dims ∧ p = (r.cell ix, x.cell ix) := by
    intro p h
    have := hp.mem_iff.1 h
    simp only [pairCells, List.mem_map] at this
    obtain ⟨ix, h1, h2⟩ := this
    exact ⟨ix, mem_allIndices.1 h1, h2.symm⟩
  obtain ⟨m', hrun, hval, hfr⟩ := runUpd_spec op l m
    (by
      have := (hp.map Prod.fst).nodup_iff.2
      apply this; rw [pairCells_fst]; exact cells_nodup r hdist)
    (fun p h => by obtain ⟨ix, h1, rfl⟩ := hmem p h; exact hra ix h1)
    (fun p h => by obtain ⟨ix, h1, rfl⟩ := hmem p h; exact hxa ix (hd ▸ h1))
    (fun p h q h' e => by
      obtain ⟨ix, h1, rfl⟩ := hmem p h
      obtain ⟨jx, h2, rfl⟩ := hmem q h'
      rw [hal ix jx h1 (hd ▸ h2) e])
  refine ⟨m', hrun, ?_, ?_⟩
  · intro ix hix
    have : (r.cell ix, x.cell ix) ∈ l := hp.mem_iff.2 (by
      simp only [pairCells, List.mem_map]
      exact ⟨ix, mem_allIndices.2 hix, rfl⟩)
    exact hval _ this
  · intro c hc
    apply hfr
    intro hcm
    obtain ⟨p, h1, rfl⟩ := List.mem_map.1 hcm
    obtain ⟨ix, h2, rfl⟩ := hmem p h1
    exact hc ix h2 rfl

/-- The cells of the bulk paths. -/
theorem bulk_perm (r x : View) (hr : r.WF) (hs : r.strides = x.strides)
    (h : (axCells (r.dims.zip r.strides)).Perm (List.range r.dims.prod)) :
    ((List.range r.dims.prod).map fun i => (r.off + i, x.off + i)).Perm (pairCells r x) := by
  have e : pairCells r x = (axCells (r.dims.zip r.strides)).map fun i => (r.off + i, x.off + i) := by
    rw [← map_dot_eq_axCells _ _ (show r.dims.length = r.strides.length from hr.symm), List.map_map]
    unfold pairCells View.cell
    simp [hs, Function.comp_def]
  rw [e]
  exact (h.map _).symm

theorem isRegular_ok (v : View) (h : v.WF) : ∃ b, isRegular v.strides v.dims = .ok b := by
  have h' : v.strides.length = v.dims.length := h
  simp [isRegular, h']

theorem isContiguous_ok (v : View) (h : v.WF) : ∃ b, isContiguous v.strides v.dims = .ok b := by
  have h' : v.strides.length = v.dims.length := h
  simp only [isContiguous, h', decide_true, Res.assrt_true, Res.ok_bind, isRegular]
  split <;> exact ⟨_, rfl⟩

theorem coScrunchLoop_ne (a : Nat × Nat × Nat) (l : List (Nat × Nat × Nat)) : coScrunchLoop a l ≠ [] := by
  induction l generalizing a with
  | nil => obtain ⟨_, _, _⟩ := a; simp [coScrunchLoop]
  | cons b l ih =>
    obtain ⟨_, _, _⟩ := a; obtain ⟨_, _, _⟩ := b
    rw [coScrunchLoop]
    split
    · exact ih _
    · simp

/-- `co_scrunch` of tensors with at least one axis keeps at least one axis. -/
theorem coScrunch_ne (r x r' x' : View) (hr : r.WF) (hd : r.dims = x.dims) (hs : ∀ s ∈ r.strides, s < intMax)
    (hne : r.dims ≠ []) (e : r.coScrunch x = .ok (r', x')) : r'.dims ≠ [] := by
  intro h
  unfold coScrunch at e
  simp only [hd, decide_true, Res.assrt_true, Res.ok_bind, Res.ok.injEq, Prod.mk.injEq] at e
  have h3 := congrArg View.dims e.1
  rw [h] at h3
  simp only [List.map_reverse, List.reverse_eq_nil_iff, List.map_eq_nil_iff] at h3
  have hord : (ordering r.strides) ≠ [] := by
    intro h4
    have h5 := (ordering_spec r.strides hs).1.length_eq
    have hr' : r.strides.length = r.dims.length := hr
    rw [h4, List.length_range, hr'] at h5
    exact hne (List.length_eq_zero_iff.1 h5.symm)
  obtain ⟨j, js, hj⟩ := List.exists_cons_of_ne_nil hord
  rw [hj, List.map_cons] at h3
  exact coScrunchLoop_ne _ _ h3

end Cnine
