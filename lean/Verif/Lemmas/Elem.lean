import Verif.Spec.Elem
import Verif.Model.Elem
import Verif.Lemmas.View

namespace Cnine

variable {α : Type _}

/-! ### the hypotheses about views can be decided -/

instance (v : View) : Decidable v.Distinct :=
  decidable_of_iff (∀ ix ∈ allIndices v.dims, ∀ jx ∈ allIndices v.dims, v.cell ix = v.cell jx → ix = jx)
    ⟨fun h ix jx h1 h2 => h ix (mem_allIndices.2 h1) jx (mem_allIndices.2 h2),
     fun h ix h1 jx h2 => h ix jx (mem_allIndices.1 h1) (mem_allIndices.1 h2)⟩

instance (r x : View) : Decidable (r.Apart x) :=
  decidable_of_iff (∀ ix ∈ allIndices r.dims, ∀ jx ∈ allIndices x.dims, r.cell ix ≠ x.cell jx)
    ⟨fun h ix jx h1 h2 => h ix (mem_allIndices.2 h1) jx (mem_allIndices.2 h2),
     fun h ix h1 jx h2 => h ix jx (mem_allIndices.1 h1) (mem_allIndices.1 h2)⟩

instance (r x : View) : Decidable (r.Aligned x) :=
  decidable_of_iff (∀ ix ∈ allIndices r.dims, ∀ jx ∈ allIndices x.dims, r.cell ix = x.cell jx → ix = jx)
    ⟨fun h ix jx h1 h2 => h ix (mem_allIndices.2 h1) jx (mem_allIndices.2 h2),
     fun h ix h1 jx h2 => h ix jx (mem_allIndices.1 h1) (mem_allIndices.1 h2)⟩

instance (v : View) (m : Buf α) : Decidable (v.Alloc m) :=
  decidable_of_iff (∀ ix ∈ allIndices v.dims, (m (v.cell ix)).isSome)
    ⟨fun h ix h1 => h ix (mem_allIndices.2 h1), fun h ix h1 => h ix (mem_allIndices.1 h1)⟩

/-! ### loops over lists -/

theorem forM_map {σ β γ} (l : List β) (g : β → γ) (s : σ) (f : σ → γ → Res σ) :
    Res.forM (l.map g) s f = Res.forM l s (fun s b => f s (g b)) := by
  induction l generalizing s with
  | nil => rfl
  | cons a l ih => simp only [List.map_cons, Res.forM_cons, ih]

theorem forM_flatMap {σ β γ} (l : List β) (g : β → List γ) (s : σ) (f : σ → γ → Res σ) :
    Res.forM (l.flatMap g) s f = Res.forM l s (fun s b => Res.forM (g b) s f) := by
  induction l generalizing s with
  | nil => rfl
  | cons a l ih => simp only [List.flatMap_cons, Res.forM_append, Res.forM_cons, ih]

theorem forM_congr {σ β} {l : List β} {f g : σ → β → Res σ} (h : ∀ b ∈ l, ∀ s, f s b = g s b) (s : σ) :
    Res.forM l s f = Res.forM l s g := by
  induction l generalizing s with
  | nil => rfl
  | cons a l ih =>
    simp only [Res.forM_cons]
    rw [h a (by simp)]
    congr 1
    funext s'
    exact ih (fun b hb => h b (by simp [hb])) s'

/-- A nest of loops over axes with addresses in an additive monoid. -/
def nest {M σ} [AddCommMonoid M] (body : M → σ → Res σ) : List (Nat × M) → M → σ → Res σ
  | [], o, s => body o s
  | (n, st) :: r, o, s => loop n s fun i s => nest body r (o + i • st) s

theorem nest_eq {M σ} [AddCommMonoid M] (body : M → σ → Res σ) (axes : List (Nat × M)) (o : M) (s : σ) :
    nest body axes o s = Res.forM (axCells axes) s (fun s c => body (o + c) s) := by
  induction axes generalizing o s with
  | nil =>
    simp only [nest, axCells, Res.forM_cons, Res.forM_nil, add_zero]
    cases body o s <;> rfl
  | cons a r ih =>
    obtain ⟨n, st⟩ := a
    simp only [nest, axCells_cons, forM_flatMap, loop]
    apply forM_congr
    intro i _ s
    rw [ih, forM_map]
    simp only [add_assoc]

/-! ### writes to distinct cells -/

/-- Write an optional value: undefined if there is none. -/
def stepW (m : Buf α) (d : Nat) (v : Option α) : Res (Buf α) :=
  match v with
  | some v => m.write d v
  | none => .ub

theorem updCell_eq (op : α → α → α) (m : Buf α) (d s : Nat) :
    updCell op m d s = stepW m d (do let a ← m d; let b ← m s; pure (op a b)) := by
  unfold updCell stepW Buf.read
  cases m d with
  | none => rfl
  | some a => cases m s <;> rfl

theorem copyCell_eq (m : Buf α) (d s : Nat) : copyCell m d s = updCell (fun _ b => b) m d s := by
  unfold copyCell updCell Buf.read Buf.write
  cases h : m d with
  | none => cases m s <;> simp
  | some a => cases m s <;> rfl

theorem stepW_ok {m : Buf α} {d : Nat} {v : α} (h : (m d).isSome) :
    stepW m d (some v) = .ok (fun b => if b = d then some v else m b) := by
  obtain ⟨a, ha⟩ := Option.isSome_iff_exists.1 h
  simp [stepW, Buf.write, ha]

/-- Running writes to pairwise distinct cells whose values do not depend on the other targets. -/
theorem runW_spec {ι : Type _} (l : List ι) (dst : ι → Nat) (f : ι → Buf α → Option α) (m : Buf α)
    (hnd : (l.map dst).Nodup) (halloc : ∀ i ∈ l, (m (dst i)).isSome) (hval : ∀ i ∈ l, (f i m).isSome)
    (hind : ∀ i ∈ l, ∀ m' : Buf α, (∀ c, (∀ j ∈ l, dst j ≠ dst i → c ≠ dst j) → m' c = m c) → f i m' = f i m) :
    ∃ m', Res.forM l m (fun m i => stepW m (dst i) (f i m)) = .ok m' ∧
      (∀ i ∈ l, m' (dst i) = f i m) ∧ ∀ c, c ∉ l.map dst → m' c = m c := by
  induction l generalizing m with
  | nil => exact ⟨m, rfl, by simp, by simp⟩
  | cons a l ih =>
    obtain ⟨v, hv⟩ := Option.isSome_iff_exists.1 (hval a (by simp))
    simp only [List.map_cons, List.nodup_cons] at hnd
    have hne : ∀ i ∈ l, dst i ≠ dst a := fun i hi h => hnd.1 (h ▸ List.mem_map_of_mem hi)
    let m1 : Buf α := fun b => if b = dst a then some v else m b
    have hm1 : ∀ c, c ≠ dst a → m1 c = m c := fun c hc => by simp [m1, hc]
    have hf1 : ∀ i ∈ l, f i m1 = f i m := by
      intro i hi
      apply hind i (by simp [hi])
      intro c hc
      exact hm1 c (hc a (by simp) (hne i hi).symm)
    obtain ⟨m', hrun, hvals, hframe⟩ := ih m1 hnd.2
      (fun i hi => by rw [hm1 _ (hne i hi)]; exact halloc i (by simp [hi]))
      (fun i hi => by rw [hf1 i hi]; exact hval i (by simp [hi]))
      (fun i hi m'' h'' => by
        rw [hf1 i hi]
        apply hind i (by simp [hi])
        intro c hc
        rw [h'' c fun j hj hji => hc j (by simp [hj]) hji]
        exact hm1 c (hc a (by simp) (hne i hi).symm))
    refine ⟨m', ?_, ?_, ?_⟩
    · rw [Res.forM_cons, hv, stepW_ok (halloc a (by simp))]
      exact hrun
    · intro i hi
      rcases List.mem_cons.1 hi with rfl | hi
      · rw [hframe _ hnd.1, hv]; simp [m1]
      · rw [hvals i hi, hf1 i hi]
    · intro c hc
      simp only [List.map_cons, List.mem_cons, not_or] at hc
      rw [hframe c hc.2, hm1 c hc.1]

/-- Element updates over a list of (target, source) cells. -/
def runUpd (op : α → α → α) (l : List (Nat × Nat)) (m : Buf α) : Res (Buf α) :=
  Res.forM l m (fun m p => updCell op m p.1 p.2)

theorem runUpd_spec (op : α → α → α) (l : List (Nat × Nat)) (m : Buf α)
    (hnd : (l.map Prod.fst).Nodup) (ha : ∀ p ∈ l, (m p.1).isSome) (hb : ∀ p ∈ l, (m p.2).isSome)
    (hal : ∀ p ∈ l, ∀ q ∈ l, p.1 = q.2 → p = q) :
    ∃ m', runUpd op l m = .ok m' ∧
      (∀ p ∈ l, m' p.1 = (do let a ← m p.1; let b ← m p.2; pure (op a b))) ∧
      ∀ c, c ∉ l.map Prod.fst → m' c = m c := by
  have := runW_spec l Prod.fst (fun p m => (do let a ← m p.1; let b ← m p.2; pure (op a b))) m hnd ha
    (fun p hp => by
      obtain ⟨a, h1⟩ := Option.isSome_iff_exists.1 (ha p hp)
      obtain ⟨b, h2⟩ := Option.isSome_iff_exists.1 (hb p hp)
      simp [h1, h2])
    (fun p hp m' h => by
      have e1 : m' p.1 = m p.1 := h _ fun j _ hj => hj.symm
      have e2 : m' p.2 = m p.2 := h _ fun j hj hji he => hji (by rw [hal j hj p hp he.symm])
      simp only [e1, e2])
  unfold runUpd
  simp only [updCell_eq]
  exact this

/-! ### contiguous views -/

theorem contiguous_chain (strides dims : List Nat) (h : isContiguous strides dims = .ok true)
    (hd : ∀ d ∈ dims, 0 < d) :
    ∃ c, IsChain 1 c ∧ ((dims.zip strides).filter (fun x => 0 < x.2)).Perm c := by
  have hlen : strides.length = dims.length := by
    by_contra hne
    simp [isContiguous, hne] at h
  simp only [isContiguous, hlen, decide_true, Res.assrt_true, Res.ok_bind, isRegular] at h
  split at h
  · rename_i hreg
    have hch := (regularLoop_iff _ _).1 hreg
    rw [zip_reverse_swap _ _ hlen] at hch
    refine ⟨_, hch, ?_⟩
    rw [List.filter_eq_self.2]
    · exact (List.reverse_perm _).symm
    · intro x hx
      have := chain_strides_ge 1 _ hch Nat.one_pos
        (fun y hy => hd y.1 (List.of_mem_zip (a := y.1) (b := y.2) (List.mem_reverse.1 hy)).1) x (List.mem_reverse.2 hx)
      exact decide_eq_true this
  · simp only [Res.ok.injEq] at h
    exact contigLoop_chain _ strides dims 1 hlen.symm Nat.one_pos hd rfl h

theorem chain_le (t : Nat) (c : List (Nat × Nat)) (h : IsChain t c) (hd : ∀ x ∈ c, 0 < x.1) :
    ∀ x ∈ c, x.2 * x.1 ≤ t * (c.map Prod.fst).prod := by
  induction c generalizing t with
  | nil => simp
  | cons y r ih =>
    obtain ⟨d, s⟩ := y
    obtain ⟨rfl, hr⟩ := h
    have hdp : 0 < d := hd (d, s) (by simp)
    have hrp : 0 < (r.map Prod.fst).prod := prod_pos_of (by
      intro e he
      obtain ⟨x, hx, rfl⟩ := List.mem_map.1 he
      exact hd x (by simp [hx]))
    intro x hx
    simp only [List.map_cons, List.prod_cons, ← Nat.mul_assoc]
    rcases List.mem_cons.1 hx with rfl | hx
    · exact Nat.le_mul_of_pos_right _ hrp
    · exact ih (s * d) hr (fun y hy => hd y (by simp [hy])) x hx

theorem chain_top (t : Nat) (c : List (Nat × Nat)) (h : IsChain t c) (hc : c ≠ []) :
    ∃ x ∈ c, x.2 * x.1 = t * (c.map Prod.fst).prod := by
  induction c generalizing t with
  | nil => exact absurd rfl hc
  | cons y r ih =>
    obtain ⟨d, s⟩ := y
    obtain ⟨rfl, hr⟩ := h
    by_cases h0 : r = []
    · subst h0; exact ⟨(d, s), by simp, by simp⟩
    · obtain ⟨x, hx, e⟩ := ih (s * d) hr h0
      exact ⟨x, by simp [hx], by simp [e, Nat.mul_assoc]⟩

/-- A zero stride on an axis longer than one makes two indices share a cell. -/
theorem distinct_zero_stride (v : View) (hwf : v.WF) (hd : ∀ d ∈ v.dims, 0 < d) (hdist : v.Distinct) :
    ∀ x ∈ v.dims.zip v.strides, x.2 = 0 → x.1 = 1 := by
  rintro ⟨d, s⟩ hx h0
  obtain ⟨k, h1, h2, e1, e2⟩ := mem_zip_getElem hx
  simp only at h0 e1 e2 ⊢
  obtain ⟨o, D, S⟩ := v
  simp only [View.WF] at *
  obtain ⟨A, d', B, rfl, hA, hd'⟩ := split_at D k h1
  obtain ⟨P, s', Q, rfl, hP, hs'⟩ := split_at S k h2
  rw [e1] at hd'; rw [e2] at hs'
  subst hd'; subst hs'; subst h0
  have hz : ∀ l : List Nat, (∀ d ∈ l, 0 < d) → InRange (l.map fun _ => 0) l := by
    intro l hl
    unfold InRange
    rw [List.forall₂_map_left_iff]
    exact List.forall₂_same.2 hl
  have hAz := hz A (fun d h => hd d (by simp [h]))
  have hBz := hz B (fun d h => hd d (by simp [h]))
  have hdp : 0 < d := hd d (by simp)
  by_contra hne
  have hlen : Q.length = B.length := by simp at hwf; omega
  have := hdist (A.map (fun _ => 0) ++ 0 :: B.map fun _ => 0) (A.map (fun _ => 0) ++ 1 :: B.map fun _ => 0)
    ((inRange_append (by simp)).2 ⟨hAz, inRange_cons.2 ⟨hdp, hBz⟩⟩)
    ((inRange_append (by simp)).2 ⟨hAz, inRange_cons.2 ⟨by omega, hBz⟩⟩)
    (by
      have e := dot_append P (0 :: Q) (A.map fun _ => 0)
      simp only [View.cell]
      rw [e _ (by simp [hA, hP]), e _ (by simp [hA, hP])]
      simp)
  simp at this

theorem distinct_contiguous (v : View) (hwf : v.WF) (hp : 0 < v.dims.prod) (hdist : v.Distinct)
    (hc : isContiguous v.strides v.dims = .ok true) :
    (axCells (v.dims.zip v.strides)).Perm (List.range v.dims.prod) ∧
    ((v.strides = [] ∨ ∃ s ∈ v.strides, s ≠ 0) → memsize v.strides v.dims = .ok v.dims.prod) := by
  have hd := pos_of_prod_pos hp
  have hz := distinct_zero_stride v hwf hd hdist
  refine ⟨(contiguous_cells _ _ hc hz).2, fun hs => ?_⟩
  have hwf' : v.strides.length = v.dims.length := hwf
  unfold memsize
  simp only [hwf', decide_true, Res.assrt_true, Res.ok_bind]
  rcases hs with hs | ⟨s, hs, hs0⟩
  · have : v.dims = [] := List.length_eq_zero_iff.1 (by rw [← hwf', hs]; rfl)
    simp [this]
  · have hne : ¬ v.dims.length = 0 := by
      rw [← hwf']; intro h
      rw [List.length_eq_zero_iff.1 h] at hs; simp at hs
    rw [if_neg hne, asize_eq, if_neg (by omega)]
    obtain ⟨c, hch, hperm⟩ := contiguous_chain _ _ hc hd
    have hprod : (c.map Prod.fst).prod = v.dims.prod := by
      have h1 : v.dims = (v.dims.zip v.strides).map Prod.fst := (List.map_fst_zip (by omega)).symm
      have hsplit : ((v.dims.zip v.strides).map Prod.fst).Perm
        (((v.dims.zip v.strides).filter (fun x => 0 < x.2)).map Prod.fst ++
          ((v.dims.zip v.strides).filter (fun x => !decide (0 < x.2))).map Prod.fst) := by
        rw [← List.map_append]
        exact ((List.filter_append_perm _ _).symm).map _
      rw [h1, hsplit.prod_eq, List.prod_append, (hperm.map Prod.fst).prod_eq]
      have : (((v.dims.zip v.strides).filter (fun x => !decide (0 < x.2))).map Prod.fst).prod = 1 := by
        apply List.prod_eq_one
        intro d hd
        obtain ⟨x, hx, rfl⟩ := List.mem_map.1 hd
        rw [List.mem_filter] at hx
        exact hz x hx.1 (by simpa using hx.2)
      rw [this, Nat.mul_one]
    have hcd : ∀ x ∈ c, 0 < x.1 := by
      intro x hx
      have := (List.mem_filter.1 (hperm.mem_iff.2 hx)).1
      exact hd x.1 (List.of_mem_zip (a := x.1) (b := x.2) this).1
    have hcne : c ≠ [] := by
      obtain ⟨k, hk, e⟩ := List.getElem_of_mem hs
      have hmem : (v.dims[k], v.strides[k]) ∈ v.dims.zip v.strides := by
        have hk' : k < (v.dims.zip v.strides).length := by simp; omega
        have := List.getElem_mem hk'
        simpa using this
      have : (v.dims[k], v.strides[k]) ∈ c := hperm.mem_iff.1 (List.mem_filter.2 ⟨hmem, by simp; omega⟩)
      intro h; rw [h] at this; simp at this
    congr 1
    apply Nat.le_antisymm
    · apply foldl_max_le _ _ _ (Nat.zero_le _)
      rintro ⟨s, d⟩ hp
      have hmem : (d, s) ∈ v.dims.zip v.strides := by
        obtain ⟨k, h1, h2, e1, e2⟩ := mem_zip_getElem hp
        have hk' : k < (v.dims.zip v.strides).length := by simp; omega
        have := List.getElem_mem hk'
        simp only [List.getElem_zip] at this
        simp only at e1 e2
        rwa [e1, e2] at this
      by_cases h0 : s = 0
      · simp [h0]
      · have : (d, s) ∈ c := hperm.mem_iff.1 (List.mem_filter.2 ⟨hmem, by simp; omega⟩)
        have := chain_le 1 c hch hcd _ this
        rw [hprod] at this
        simpa using this
    · obtain ⟨⟨d, s⟩, hx, e⟩ := chain_top 1 c hch hcne
      rw [hprod, Nat.one_mul] at e
      have hmem := (List.mem_filter.1 (hperm.mem_iff.2 hx)).1
      have hmem' : (s, d) ∈ v.strides.zip v.dims := by
        obtain ⟨k, h1, h2, e1, e2⟩ := mem_zip_getElem hmem
        have hk' : k < (v.strides.zip v.dims).length := by simp; omega
        have := List.getElem_mem hk'
        simp only [List.getElem_zip] at this
        simp only at e1 e2
        rwa [e1, e2] at this
      have := (foldl_max_ge (v.strides.zip v.dims) 0).2 _ hmem'
      simp only at this e
      omega

end Cnine
