import Verif.Lemmas.Regions

namespace Cnine

open View

variable {α : Type _}

/-- Updating each cell of a list of distinct cells on its own. -/
theorem cellwise_updated (f : α → α) (v : View) (hdist : v.Distinct) (m : Buf α) (ha : v.Alloc m)
    (l : List Nat) (hp : l.Perm v.cells) :
    ∃ m', Res.forM l m (fun m c => do
        let a ← m.read c
        m.write c (f a)) = .ok m' ∧
      Updated v (fun ix => (v.val m ix).map f) m m' := by
  have hmem : ∀ c, c ∈ l ↔ ∃ ix, InRange ix v.dims ∧ v.cell ix = c := by
    intro c
    rw [hp.mem_iff, View.cells, List.mem_map]
    simp only [mem_allIndices]
  have hal : ∀ c ∈ l, (m c).isSome := by
    intro c hc
    obtain ⟨ix, hix, rfl⟩ := (hmem c).1 hc
    exact ha ix hix
  have hstep : ∀ (m : Buf α) (c : Nat), (do
        let a ← m.read c
        m.write c (f a)) = stepW m c ((m c).map f) := by
    intro m c
    unfold stepW Buf.read
    cases m c <;> rfl
  obtain ⟨m', h1, h2, h3⟩ := runW_spec l id (fun c m => (m c).map f) m
    (by rw [List.map_id]; exact hp.nodup_iff.2 (cells_nodup v hdist)) hal
    (fun c hc => by simpa using hal c hc)
    (fun c _ m' h => by
      have : m' c = m c := h c fun j _ hj => hj.symm
      simp only [this])
  refine ⟨m', ?_, ?_, ?_⟩
  · simp only [hstep]; exact h1
  · intro ix hix
    exact h2 _ ((hmem _).2 ⟨ix, hix, rfl⟩)
  · intro c hc
    apply h3
    rw [List.map_id]
    intro h
    obtain ⟨ix, hix, e⟩ := (hmem c).1 h
    exact hc ix hix e.symm

/-- `for_each` on tensors of rank at least one. -/
theorem forEach_eq {σ : Type _} (v : View) (hwf : v.WF) (hne : v.dims ≠ []) (s : σ) (f : Nat → σ → Res σ) :
    v.forEach s f = Res.forM v.cells s (fun s c => f c s) := by
  have key := nest_eq f (v.dims.zip v.strides) v.off s
  have h2 := cells_eq_axCells v hwf
  obtain ⟨o, D, S⟩ := v
  simp only [WF] at hwf hne key
  match D, S, hwf with
  | [n0], [s0], _ => rw [h2, forM_map]; exact key
  | [n0, n1], [s0, s1], _ => rw [h2, forM_map]; exact key
  | [n0, n1, n2], [s0, s1, s2], _ => rw [h2, forM_map]; exact key
  | [n0, n1, n2, n3], [s0, s1, s2, s3], _ => rw [h2, forM_map]; exact key
  | [n0, n1, n2, n3, n4], [s0, s1, s2, s3, s4], _ => rw [h2, forM_map]; exact key
  | n0 :: n1 :: n2 :: n3 :: n4 :: n5 :: ns, S, hwf =>
    simp only [forEach]
    rw [foreachIndex_eq (by simp), Res.ok_bind, View.cells, forM_map]
    apply forM_congr
    intro ix hix s
    have := (mem_allIndices.1 hix).length
    rw [addr_eq _ ix (by simp only at *; omega), Res.ok_bind]
  | [], _, _ => exact absurd rfl hne

theorem scrunchLoop_ne (a : Nat × Nat) (l : List (Nat × Nat)) : scrunchLoop a l ≠ [] := by
  induction l generalizing a with
  | nil => obtain ⟨_, _⟩ := a; simp [scrunchLoop]
  | cons b l ih =>
    obtain ⟨_, _⟩ := a; obtain ⟨_, _⟩ := b
    rw [scrunchLoop]
    split
    · exact ih _
    · simp

theorem scrunch_ne (v : View) (hwf : v.WF) (hs : ∀ s ∈ v.strides, s < intMax) (hne : v.dims ≠ []) :
    v.scrunch.dims ≠ [] := by
  intro h
  unfold scrunch at h
  simp only [List.map_reverse, List.reverse_eq_nil_iff, List.map_eq_nil_iff] at h
  have hord : (ordering v.strides) ≠ [] := by
    intro h4
    have h5 := (ordering_spec v.strides hs).1.length_eq
    have hr' : v.strides.length = v.dims.length := hwf
    rw [h4, List.length_range, hr'] at h5
    exact hne (List.length_eq_zero_iff.1 h5.symm)
  obtain ⟨j, js, hj⟩ := List.exists_cons_of_ne_nil hord
  rw [hj, List.map_cons] at h
  exact scrunchLoop_ne _ _ h

end Cnine
