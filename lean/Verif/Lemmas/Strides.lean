import Verif.Lemmas.Index

namespace Cnine

/-! ### min_element / max_element -/

theorem exists_min (v : List Nat) (h : v ≠ []) : ∃ a ∈ v, ∀ b ∈ v, a ≤ b := by
  induction v with
  | nil => exact absurd rfl h
  | cons x v ih =>
    by_cases hv : v = []
    · subst hv; exact ⟨x, by simp, by simp⟩
    · obtain ⟨a, ha, hmin⟩ := ih hv
      by_cases hxa : x ≤ a
      · refine ⟨x, by simp, ?_⟩
        intro b hb
        rcases List.mem_cons.1 hb with rfl | hb
        · exact Nat.le_refl _
        · exact Nat.le_trans hxa (hmin b hb)
      · refine ⟨a, by simp [ha], ?_⟩
        intro b hb
        rcases List.mem_cons.1 hb with rfl | hb
        · omega
        · exact hmin b hb

theorem exists_max (v : List Nat) (h : v ≠ []) : ∃ a ∈ v, ∀ b ∈ v, b ≤ a := by
  induction v with
  | nil => exact absurd rfl h
  | cons x v ih =>
    by_cases hv : v = []
    · subst hv; exact ⟨x, by simp, by simp⟩
    · obtain ⟨a, ha, hmax⟩ := ih hv
      by_cases hxa : a ≤ x
      · refine ⟨x, by simp, ?_⟩
        intro b hb
        rcases List.mem_cons.1 hb with rfl | hb
        · exact Nat.le_refl _
        · exact Nat.le_trans (hmax b hb) hxa
      · refine ⟨a, by simp [ha], ?_⟩
        intro b hb
        rcases List.mem_cons.1 hb with rfl | hb
        · omega
        · exact hmax b hb

theorem minElement_spec (v : List Nat) (h : v ≠ []) :
    ∃ hm : minElement v < v.length, (∀ b ∈ v, v[minElement v] ≤ b) ∧
      ∀ j (hj : j < v.length), j < minElement v → v[minElement v] < v[j] := by
  obtain ⟨a, ha, hmin⟩ := exists_min v h
  have hex : ∃ x ∈ v, (fun a => v.all (a ≤ ·)) x = true := ⟨a, ha, by simpa using hmin⟩
  have hm : minElement v < v.length := List.findIdx_lt_length.2 hex
  have hp := List.findIdx_getElem (p := fun a => v.all (a ≤ ·)) (w := hm)
  have hall : ∀ b ∈ v, v[minElement v] ≤ b := by
    simp only [List.all_eq_true, decide_eq_true_eq] at hp; exact hp
  refine ⟨hm, hall, ?_⟩
  intro j hj hlt
  have hn := List.not_of_lt_findIdx (p := fun a => v.all (a ≤ ·)) hlt
  have hn' : ∃ x ∈ v, x < v[j] := by simpa using hn
  obtain ⟨x, hx, hxj⟩ := hn'
  exact Nat.lt_of_le_of_lt (hall x hx) hxj

theorem maxElement_spec (v : List Nat) (h : v ≠ []) :
    ∃ hm : maxElement v < v.length, (∀ b ∈ v, b ≤ v[maxElement v]) ∧
      ∀ j (hj : j < v.length), j < maxElement v → v[j] < v[maxElement v] := by
  obtain ⟨a, ha, hmax⟩ := exists_max v h
  have hex : ∃ x ∈ v, (fun a => v.all (· ≤ a)) x = true := ⟨a, ha, by simpa using hmax⟩
  have hm : maxElement v < v.length := List.findIdx_lt_length.2 hex
  have hp := List.findIdx_getElem (p := fun a => v.all (· ≤ a)) (w := hm)
  have hall : ∀ b ∈ v, b ≤ v[maxElement v] := by
    simp only [List.all_eq_true, decide_eq_true_eq] at hp; exact hp
  refine ⟨hm, hall, ?_⟩
  intro j hj hlt
  have hn := List.not_of_lt_findIdx (p := fun a => v.all (· ≤ a)) hlt
  have hn' : ∃ x ∈ v, v[j] < x := by simpa using hn
  obtain ⟨x, hx, hxj⟩ := hn'
  exact Nat.lt_of_lt_of_le hxj (hall x hx)

/-! ### ordering -/

theorem countP_set_of_pos {p : Nat → Bool} (v : List Nat) (m : Nat) (hm : m < v.length) (x : Nat)
    (h1 : p v[m] = true) (h2 : p x = false) : (v.set m x).countP p + 1 = v.countP p := by
  have e1 : v.Perm (v[m] :: v.eraseIdx m) := (List.getElem_cons_eraseIdx_perm hm).symm
  have e2 : (v.set m x).Perm (x :: v.eraseIdx m) := List.set_perm_cons_eraseIdx hm x
  rw [e1.countP_eq, e2.countP_eq]
  simp [h1, h2]

theorem orderingLoop_spec (n : Nat) (v : List Nat) (hn : v.countP (· < intMax) = n)
    (hle : ∀ b ∈ v, b ≤ intMax) :
    (orderingLoop n v).length = n ∧ (orderingLoop n v).Nodup ∧
    (∀ j ∈ orderingLoop n v, ∃ h : j < v.length, v[j] < intMax) ∧
    (orderingLoop n v).Pairwise (fun a b => v[a]?.getD 0 < v[b]?.getD 0 ∨
      (v[a]?.getD 0 = v[b]?.getD 0 ∧ a < b)) := by
  induction n generalizing v with
  | zero => simp [orderingLoop]
  | succ n ih =>
    have hne : v ≠ [] := by rintro rfl; simp at hn
    obtain ⟨hm, hmin, hfirst⟩ := minElement_spec v hne
    have hmlt : v[minElement v] < intMax := by
      have : 0 < v.countP (· < intMax) := by omega
      obtain ⟨x, hx, hlt⟩ := List.countP_pos_iff.1 this
      exact Nat.lt_of_le_of_lt (hmin x hx) (by simpa using hlt)
    generalize hmd : minElement v = m at *
    have hcount := countP_set_of_pos (p := fun x => decide (x < intMax)) v m hm intMax (by simpa using hmlt) (by simp)
    have hle' : ∀ b ∈ v.set m intMax, b ≤ intMax := by
      intro b hb
      rcases List.mem_or_eq_of_mem_set hb with hb | rfl
      · exact hle b hb
      · exact Nat.le_refl _
    obtain ⟨hlen, hnd, hmem, hpw⟩ := ih (v.set m intMax) (by omega) hle'
    have hmem' : ∀ j ∈ orderingLoop n (v.set m intMax), j ≠ m ∧ ∃ h : j < v.length, v[j] < intMax := by
      intro j hj
      obtain ⟨h, hlt⟩ := hmem j hj
      have hjm : j ≠ m := by
        rintro rfl
        simp at hlt
      refine ⟨hjm, by simpa using h, ?_⟩
      rwa [List.getElem_set_ne (Ne.symm hjm)] at hlt
    rw [orderingLoop, hmd]
    refine ⟨by simp [hlen], ?_, ?_, ?_⟩
    · rw [List.nodup_cons]
      exact ⟨fun hj => (hmem' m hj).1 rfl, hnd⟩
    · intro j hj
      rcases List.mem_cons.1 hj with rfl | hj
      · exact ⟨hm, hmlt⟩
      · exact (hmem' j hj).2
    · rw [List.pairwise_cons]
      constructor
      · intro j hj
        obtain ⟨hjm, hjl, hjv⟩ := hmem' j hj
        have hle2 := hmin v[j] (List.getElem_mem hjl)
        simp only [List.getElem?_eq_getElem hm, List.getElem?_eq_getElem hjl, Option.getD_some]
        rcases Nat.lt_or_eq_of_le hle2 with hlt | heq
        · exact Or.inl hlt
        · refine Or.inr ⟨heq, ?_⟩
          rcases Nat.lt_trichotomy j m with h | h | h
          · have := hfirst j hjl h
            omega
          · exact absurd h hjm
          · exact h
      · refine hpw.imp_of_mem ?_
        intro a b ha hb hab
        have ha' := (hmem' a ha).1
        have hb' := (hmem' b hb).1
        rwa [List.getElem?_set_ne (Ne.symm ha'), List.getElem?_set_ne (Ne.symm hb')] at hab

theorem perm_range_of_nodup {l : List Nat} {n : Nat} (hl : l.length = n) (hnd : l.Nodup)
    (hlt : ∀ j ∈ l, j < n) : l.Perm (List.range n) := by
  refine (List.subperm_of_subset hnd ?_).perm_of_length_le (by simp [hl])
  intro j hj
  exact List.mem_range.2 (hlt j hj)

theorem ordering_spec (v : List Nat) (h : ∀ s ∈ v, s < intMax) :
    (ordering v).Perm (List.range v.length) ∧
    (ordering v).Pairwise (fun a b => v[a]?.getD 0 < v[b]?.getD 0 ∨
      (v[a]?.getD 0 = v[b]?.getD 0 ∧ a < b)) := by
  have hc : v.countP (· < intMax) = v.length := by
    rw [List.countP_eq_length]
    intro a ha; simpa using h a ha
  obtain ⟨hl, hnd, hm, hp⟩ := orderingLoop_spec v.length v hc (fun b hb => Nat.le_of_lt (h b hb))
  exact ⟨perm_range_of_nodup hl hnd fun j hj => (hm j hj).1, hp⟩

theorem descOrderingLoop_spec (n : Nat) (v : List Nat) (hn : v.countP (0 < ·) = n) :
    (descOrderingLoop n v).length = n ∧ (descOrderingLoop n v).Nodup ∧
    (∀ j ∈ descOrderingLoop n v, ∃ h : j < v.length, 0 < v[j]) ∧
    (descOrderingLoop n v).Pairwise (fun a b => v[b]?.getD 0 < v[a]?.getD 0 ∨
      (v[a]?.getD 0 = v[b]?.getD 0 ∧ a < b)) := by
  induction n generalizing v with
  | zero => simp [descOrderingLoop]
  | succ n ih =>
    have hne : v ≠ [] := by rintro rfl; simp at hn
    obtain ⟨hm, hmax, hfirst⟩ := maxElement_spec v hne
    have hmlt : 0 < v[maxElement v] := by
      have : 0 < v.countP (0 < ·) := by omega
      obtain ⟨x, hx, hlt⟩ := List.countP_pos_iff.1 this
      exact Nat.lt_of_lt_of_le (by simpa using hlt) (hmax x hx)
    generalize hmd : maxElement v = m at *
    have hcount := countP_set_of_pos (p := fun x => decide (0 < x)) v m hm 0 (by simpa using hmlt) (by simp)
    obtain ⟨hlen, hnd, hmem, hpw⟩ := ih (v.set m 0) (by omega)
    have hmem' : ∀ j ∈ descOrderingLoop n (v.set m 0), j ≠ m ∧ ∃ h : j < v.length, 0 < v[j] := by
      intro j hj
      obtain ⟨h, hlt⟩ := hmem j hj
      have hjm : j ≠ m := by
        rintro rfl
        simp at hlt
      refine ⟨hjm, by simpa using h, ?_⟩
      rwa [List.getElem_set_ne (Ne.symm hjm)] at hlt
    rw [descOrderingLoop, hmd]
    refine ⟨by simp [hlen], ?_, ?_, ?_⟩
    · rw [List.nodup_cons]
      exact ⟨fun hj => (hmem' m hj).1 rfl, hnd⟩
    · intro j hj
      rcases List.mem_cons.1 hj with rfl | hj
      · exact ⟨hm, hmlt⟩
      · exact (hmem' j hj).2
    · rw [List.pairwise_cons]
      constructor
      · intro j hj
        obtain ⟨hjm, hjl, hjv⟩ := hmem' j hj
        have hle2 := hmax v[j] (List.getElem_mem hjl)
        simp only [List.getElem?_eq_getElem hm, List.getElem?_eq_getElem hjl, Option.getD_some]
        rcases Nat.lt_or_eq_of_le hle2 with hlt | heq
        · exact Or.inl hlt
        · refine Or.inr ⟨heq.symm, ?_⟩
          rcases Nat.lt_trichotomy j m with h | h | h
          · have := hfirst j hjl h
            omega
          · exact absurd h hjm
          · exact h
      · refine hpw.imp_of_mem ?_
        intro a b ha hb hab
        have ha' := (hmem' a ha).1
        have hb' := (hmem' b hb).1
        rwa [List.getElem?_set_ne (Ne.symm ha'), List.getElem?_set_ne (Ne.symm hb')] at hab

theorem descOrdering_spec (v : List Nat) (h : ∀ s ∈ v, 0 < s) :
    (descOrdering v).Perm (List.range v.length) ∧
    (descOrdering v).Pairwise (fun a b => v[b]?.getD 0 < v[a]?.getD 0 ∨
      (v[a]?.getD 0 = v[b]?.getD 0 ∧ a < b)) := by
  have hc : v.countP (0 < ·) = v.length := by
    rw [List.countP_eq_length]
    intro a ha; simpa using h a ha
  obtain ⟨hl, hnd, hm, hp⟩ := descOrderingLoop_spec v.length v hc
  exact ⟨perm_range_of_nodup hl hnd fun j hj => (hm j hj).1, hp⟩

/-! ### cells of a view -/

theorem map_dot_eq_axCells (dims strides : List Nat) (h : dims.length = strides.length) :
    (allIndices dims).map (dot strides) = axCells (dims.zip strides) := by
  induction dims generalizing strides with
  | nil => simp [allIndices, axCells]
  | cons d ds ih =>
    cases strides with
    | nil => simp at h
    | cons s ss =>
      simp only [allIndices, List.map_flatMap, List.map_map, List.zip_cons_cons, axCells_cons]
      refine List.flatMap_congr fun i _ => ?_
      rw [← ih ss (by simpa using h), List.map_map]
      apply List.map_congr_left
      intro c _
      simp [Nat.mul_comm]

/-- A chain of axes starting at stride `t`, each continuing where the previous one ends. -/
def IsChain : Nat → List (Nat × Nat) → Prop
  | _, [] => True
  | t, (d, s) :: r => s = t ∧ IsChain (t * d) r

theorem axCells_chain (t : Nat) (l : List (Nat × Nat)) (h : IsChain t l) :
    (axCells l).Perm (axCells [((l.map Prod.fst).prod, t)]) := by
  induction l generalizing t with
  | nil => simp [axCells_one]
  | cons x r ih =>
    obtain ⟨d, s⟩ := x
    obtain ⟨rfl, hr⟩ := h
    have h1 : (axCells ((d, s) :: r)).Perm (axCells [(d, s), ((r.map Prod.fst).prod, s * d)]) := by
      simp only [axCells_cons (d := d)]
      exact List.Perm.flatMap_left _ (fun i _ => (ih (s * d) hr).map _)
    refine h1.trans ((axCells_perm (List.Perm.swap _ _ _)).trans ?_)
    have : s * d = d • s := by simp [Nat.mul_comm]
    rw [this, axCells_merge]
    simp [Nat.mul_comm]

theorem axCells_zeros (l r : List (Nat × Nat)) (h : ∀ x ∈ l, x.1 = 1) :
    axCells (l ++ r) = axCells r := by
  induction l with
  | nil => rfl
  | cons x l ih =>
    obtain ⟨d, s⟩ := x
    have : d = 1 := h (d, s) (by simp)
    subst this
    rw [List.cons_append, axCells_one, ih fun y hy => h y (by simp [hy])]

theorem zip_set_right (l : List Nat) (v : List Nat) (j x : Nat) (hj : j < v.length)
    (h : l.length = v.length) : l.zip (v.set j x) = (l.zip v).set j (l[j]?.getD 0, x) := by
  apply List.ext_getElem
  · simp
  · intro i h1 h2
    simp only [List.getElem_zip, List.getElem_set]
    split
    · subst_vars
      have : i < l.length := by omega
      simp [List.getElem?_eq_getElem this]
    · rfl

theorem contigLoop_chain (n : Nat) (v dims : List Nat) (t : Nat) (hlen : dims.length = v.length)
    (ht : 0 < t) (hd : ∀ d ∈ dims, 0 < d) (hn : v.countP (0 < ·) = n) (h : contigLoop n v dims t = true) :
    ∃ c, IsChain t c ∧ ((dims.zip v).filter (fun x => 0 < x.2)).Perm c := by
  induction n generalizing v t with
  | zero =>
    refine ⟨[], trivial, ?_⟩
    have : (dims.zip v).filter (fun x => 0 < x.2) = [] := by
      rw [List.filter_eq_nil_iff]
      rintro ⟨a, b⟩ hx
      have hb := (List.of_mem_zip hx).2
      have := (List.countP_eq_zero.1 hn) b hb
      simpa using this
    rw [this]
  | succ n ih =>
    rw [contigLoop] at h
    split at h
    · simp at h
    · rename_i j hj
      obtain ⟨hjl, hjt, _⟩ := List.findIdx?_eq_some_iff_getElem.1 hj
      have hjt' : v[j] = t := by simpa using hjt
      have hcount := countP_set_of_pos (p := fun x => decide (0 < x)) v j hjl 0
        (by simp [hjt', ht]) (by simp)
      have hjd : j < dims.length := by omega
      have hdj : 0 < dims[j] := hd _ (List.getElem_mem hjd)
      have hget : dims[j]?.getD 0 = dims[j] := by simp [List.getElem?_eq_getElem hjd]
      rw [hget] at h
      obtain ⟨c, hc, hp⟩ := ih (v.set j 0) (t * dims[j]) (by simpa using hlen)
        (Nat.mul_pos ht hdj) (by omega) h
      refine ⟨(dims[j], t) :: c, ⟨rfl, hc⟩, ?_⟩
      have hjz : j < (dims.zip v).length := by simp; omega
      have e1 : (dims.zip v).Perm ((dims.zip v)[j] :: (dims.zip v).eraseIdx j) :=
        (List.getElem_cons_eraseIdx_perm hjz).symm
      have e2 : (dims.zip (v.set j 0)).Perm ((dims[j], 0) :: (dims.zip v).eraseIdx j) := by
        rw [zip_set_right dims v j 0 hjl hlen, hget]
        exact List.set_perm_cons_eraseIdx hjz _
      have f1 := e1.filter (fun x => decide (0 < x.2))
      have f2 := e2.filter (fun x => decide (0 < x.2))
      have g1 : (dims.zip v)[j] = (dims[j], t) := by simp [hjt']
      rw [g1, List.filter_cons_of_pos (by simpa using ht)] at f1
      rw [List.filter_cons_of_neg (by simp)] at f2
      exact f1.trans ((f2.symm.trans hp).cons _)

theorem regularLoop_iff (l : List (Nat × Nat)) (t : Nat) :
    regularLoop l t = true ↔ IsChain t (l.map fun p => (p.2, p.1)) := by
  induction l generalizing t with
  | nil => simp [regularLoop, IsChain]
  | cons x r ih =>
    obtain ⟨s, d⟩ := x
    simp [regularLoop, IsChain, ih]

theorem zip_reverse_swap (a b : List Nat) (_h : a.length = b.length) :
    ((a.zip b).reverse.map fun p => (p.2, p.1)) = (b.zip a).reverse := by
  rw [List.map_reverse]
  congr 1
  apply List.ext_getElem
  · simp [Nat.min_comm]
  · intro i h1 h2; simp

/-- `is_contiguous` is sound for views without genuine broadcast axes. -/
theorem contiguous_cells (strides dims : List Nat)
    (h : isContiguous strides dims = .ok true)
    (hz : ∀ x ∈ dims.zip strides, x.2 = 0 → x.1 = 1) :
    dims.length = strides.length ∧ (axCells (dims.zip strides)).Perm (List.range dims.prod) := by
  have hlen : strides.length = dims.length := by
    by_contra hne
    simp [isContiguous, hne] at h
  refine ⟨hlen.symm, ?_⟩
  by_cases hp : dims.prod = 0
  · have : (axCells (dims.zip strides)).length = 0 := by
      rw [axCells_length, List.map_fst_zip (by omega), hp]
    rw [List.length_eq_zero_iff.1 this, hp]
    simp
  have hd := pos_of_prod_pos (Nat.pos_of_ne_zero hp)
  have key : ∀ c, IsChain 1 c → ((dims.zip strides).filter (fun x => 0 < x.2)).Perm c →
      (axCells (dims.zip strides)).Perm (List.range dims.prod) := by
    intro c hc hperm
    have hsplit : (dims.zip strides).Perm
        ((dims.zip strides).filter (fun x => !decide (0 < x.2)) ++ (dims.zip strides).filter (fun x => 0 < x.2)) :=
      ((List.filter_append_perm _ _).symm.trans List.perm_append_comm)
    have h1 := axCells_perm hsplit
    rw [axCells_zeros] at h1
    swap
    · intro x hx
      rw [List.mem_filter] at hx
      exact hz x hx.1 (by simpa using hx.2)
    have h2 := h1.trans (axCells_perm hperm)
    have h3 := h2.trans (axCells_chain 1 c hc)
    rw [axCells_single] at h3
    have hlen3 := h3.length_eq
    rw [axCells_length, List.map_fst_zip (by omega)] at hlen3
    simp at hlen3
    rw [← hlen3] at h3
    simpa using h3
  simp only [isContiguous, hlen, decide_true, Res.assrt_true, Res.ok_bind, isRegular] at h
  split at h
  · rename_i hreg
    have hch := (regularLoop_iff _ _).1 hreg
    rw [zip_reverse_swap _ _ hlen] at hch
    have h3 := (axCells_perm (List.reverse_perm (dims.zip strides)).symm).trans (axCells_chain 1 _ hch)
    rw [axCells_single, List.map_reverse, List.prod_reverse, List.map_fst_zip (by omega)] at h3
    simpa using h3
  · simp only [Res.ok.injEq] at h
    obtain ⟨c, hc, hperm⟩ := contigLoop_chain _ strides dims 1 hlen.symm Nat.one_pos hd rfl h
    exact key c hc hperm

/-! ### completeness of `is_contiguous` for permuted row-major layouts -/

theorem chain_strides_ge (t : Nat) (l : List (Nat × Nat)) (h : IsChain t l) (ht : 0 < t)
    (hd : ∀ x ∈ l, 0 < x.1) : ∀ x ∈ l, t ≤ x.2 := by
  induction l generalizing t with
  | nil => simp
  | cons y r ih =>
    obtain ⟨d, s⟩ := y
    obtain ⟨rfl, hr⟩ := h
    have hdp : 0 < d := hd (d, s) (by simp)
    intro x hx
    rcases List.mem_cons.1 hx with rfl | hx
    · exact Nat.le_refl _
    · have := ih (s * d) hr (Nat.mul_pos ht hdp) (fun y hy => hd y (by simp [hy])) x hx
      exact Nat.le_trans (Nat.le_mul_of_pos_right _ hdp) this

theorem contigLoop_complete (n : Nat) (v dims : List Nat) (t : Nat) (hlen : dims.length = v.length)
    (ht : 0 < t) (hn : v.countP (0 < ·) = n) (c : List (Nat × Nat)) (hc : IsChain t c)
    (hc2 : ∀ x ∈ c, 2 ≤ x.1) (hp : ((dims.zip v).filter (fun x => 0 < x.2)).Perm c) :
    contigLoop n v dims t = true := by
  induction n generalizing v t c with
  | zero => rfl
  | succ n ih =>
    have hcl : c.length = n + 1 := by
      have h1 := hp.length_eq
      rw [← h1, ← List.countP_eq_length_filter, ← hn]
      have : v = (dims.zip v).map Prod.snd := (List.map_snd_zip (by omega)).symm
      conv => rhs; rw [this, List.countP_map]
      rfl
    cases c with
    | nil => simp at hcl
    | cons y c =>
      obtain ⟨d, s⟩ := y
      obtain ⟨hst, hc'⟩ := hc
      subst hst
      have hd2 : 2 ≤ d := hc2 (d, s) (by simp)
      have hmem : (d, s) ∈ dims.zip v := (List.mem_filter.1 (hp.mem_iff.2 (by simp))).1
      have hsv : s ∈ v := (List.of_mem_zip hmem).2
      rw [contigLoop]
      split
      · rename_i hnone
        rw [List.findIdx?_eq_none_iff] at hnone
        simpa using hnone s hsv
      · rename_i j hj
        obtain ⟨hjl, hjt, _⟩ := List.findIdx?_eq_some_iff_getElem.1 hj
        have hjt' : v[j] = s := by simpa using hjt
        have hjd : j < dims.length := by omega
        have hget : dims[j]?.getD 0 = dims[j] := by simp [List.getElem?_eq_getElem hjd]
        have hjz : j < (dims.zip v).length := by simp; omega
        have g1 : (dims.zip v)[j] = (dims[j], s) := by simp [hjt']
        -- the axis found is the head of the chain, because later strides are larger
        have hin : (dims[j], s) ∈ (d, s) :: c := by
          refine hp.mem_iff.1 (List.mem_filter.2 ⟨?_, by simpa using ht⟩)
          rw [← g1]; exact List.getElem_mem hjz
        have hge := chain_strides_ge (s * d) c hc' (Nat.mul_pos ht (by omega))
          (fun x hx => by have := hc2 x (by simp [hx]); omega)
        have hdj : dims[j] = d := by
          rcases List.mem_cons.1 hin with h | h
          · simpa using h
          · have := hge _ h
            simp only at this
            have h2 : s * 2 ≤ s * d := Nat.mul_le_mul_left _ hd2
            omega
        rw [hget, hdj]
        have hcount := countP_set_of_pos (p := fun x => decide (0 < x)) v j hjl 0
          (by simp [hjt', ht]) (by simp)
        refine ih (v.set j 0) (s * d) (by simpa using hlen) (Nat.mul_pos ht (by omega)) (by omega) c hc'
          (fun x hx => hc2 x (by simp [hx])) ?_
        have e1 : (dims.zip v).Perm ((dims.zip v)[j] :: (dims.zip v).eraseIdx j) :=
          (List.getElem_cons_eraseIdx_perm hjz).symm
        have e2 : (dims.zip (v.set j 0)).Perm ((dims[j], 0) :: (dims.zip v).eraseIdx j) := by
          rw [zip_set_right dims v j 0 hjl hlen, hget]
          exact List.set_perm_cons_eraseIdx hjz _
        have f1 := e1.filter (fun x => decide (0 < x.2))
        have f2 := e2.filter (fun x => decide (0 < x.2))
        rw [g1, List.filter_cons_of_pos (by simpa using ht), hdj] at f1
        rw [List.filter_cons_of_neg (by simp)] at f2
        exact f2.trans (List.perm_cons _ |>.1 (f1.symm.trans hp))

/-! ### memsize -/

theorem span_perm {l k : List (Nat × Nat)} (h : l.Perm k) : span l = span k := by
  induction h with
  | nil => rfl
  | cons x _ ih => obtain ⟨d, s⟩ := x; simp [span, ih]
  | swap x y l => obtain ⟨d, s⟩ := x; obtain ⟨e, t⟩ := y; simp [span]; omega
  | trans _ _ ih₁ ih₂ => exact ih₁.trans ih₂

theorem dot_le_span (dims strides ix : List Nat) (h : InRange ix dims) :
    dot strides ix ≤ span (dims.zip strides) := by
  induction h generalizing strides with
  | nil => simp [span]
  | @cons i d is ds hi _ ih =>
    cases strides with
    | nil => simp
    | cons s ss =>
      simp only [dot_cons, List.zip_cons_cons, span]
      have h1 := ih ss
      have h2 : s * i ≤ (d - 1) * s := by
        rw [Nat.mul_comm]; exact Nat.mul_le_mul_right _ (by omega)
      omega

theorem foldl_max_ge (l : List (Nat × Nat)) (t : Nat) :
    t ≤ l.foldl (fun t p => max t (p.1 * p.2)) t ∧
    ∀ p ∈ l, p.1 * p.2 ≤ l.foldl (fun t p => max t (p.1 * p.2)) t := by
  induction l generalizing t with
  | nil => simp
  | cons x l ih =>
    obtain ⟨h1, h2⟩ := ih (max t (x.1 * x.2))
    simp only [List.foldl_cons]
    refine ⟨Nat.le_trans (Nat.le_max_left _ _) h1, ?_⟩
    intro p hp
    rcases List.mem_cons.1 hp with rfl | hp
    · exact Nat.le_trans (Nat.le_max_right _ _) h1
    · exact h2 p hp

theorem foldl_max_le (l : List (Nat × Nat)) (t b : Nat) (ht : t ≤ b) (h : ∀ p ∈ l, p.1 * p.2 ≤ b) :
    l.foldl (fun t p => max t (p.1 * p.2)) t ≤ b := by
  induction l generalizing t with
  | nil => simpa
  | cons x l ih =>
    simp only [List.foldl_cons]
    exact ih _ (Nat.max_le.2 ⟨ht, h x (by simp)⟩) (fun p hp => h p (by simp [hp]))

/-! ### fuser -/

theorem fuserCheck_chain (s d : Nat) (r : List (Nat × Nat)) (h : fuserCheck ((s, d) :: r) = true) :
    IsChain s (((s, d) :: r).map fun p => (p.2, p.1)) ∧
    (((s, d) :: r).getLast (by simp)).1 * (((s, d) :: r).getLast (by simp)).2
      = s * (((s, d) :: r).map Prod.snd).prod := by
  induction r generalizing s d with
  | nil => simp [IsChain]
  | cons x r ih =>
    obtain ⟨s', d'⟩ := x
    rw [fuserCheck] at h
    split at h
    · simp at h
    · rename_i hs
      have hs' : s' = s * d := by simpa using hs
      subst hs'
      obtain ⟨h1, h2⟩ := ih (s * d) d' h
      refine ⟨⟨rfl, h1⟩, ?_⟩
      rw [List.getLast_cons (by simp), h2]
      simp
      ring

theorem map_range_getD (l k : List Nat) (h : l.length = k.length) :
    ((List.range l.length).map fun j => (l[j]?.getD 0, k[j]?.getD 0)) = l.zip k := by
  apply List.ext_getElem
  · simp [h]
  · intro i h1 h2
    simp at h1 h2
    simp [List.getElem?_eq_getElem h1, List.getElem?_eq_getElem h2.2]

theorem ordered_axes_perm (strides dims : List Nat) (hlen : strides.length = dims.length)
    (h : ∀ s ∈ strides, s < intMax) :
    ((ordering strides).map fun j => (strides[j]?.getD 0, dims[j]?.getD 0)).Perm (strides.zip dims) := by
  rw [← map_range_getD strides dims hlen]
  exact (ordering_spec strides h).1.map _

end Cnine
