import Verif.Lemmas.View

/-!
# Properties of view-producing functions (C11–C15)

Vocabulary: `View.cell`, `Relabels`, `RelabelsBij`, `View.cells` in `Verif/Spec/View.lean`.
-/

namespace Cnine

open View

/-! ## C11 -/

/-- Reshaping a regular view to dims of the same size gives the same cells in the same row-major
order. -/
theorem C11_reshape (v : View) (dims : List Nat) (hreg : isRegular v.strides v.dims = .ok true)
    (hs : asize dims = asize v.dims) :
    ∃ w, v.reshape dims = .ok w ∧ w.dims = dims ∧ w.WF ∧ w.cells = v.cells ∧
      ∀ ix jx, InRange ix dims → InRange jx v.dims → position dims ix = position v.dims jx →
        w.cell ix = v.cell jx := by
  refine ⟨⟨v.off, dims, rmStrides dims⟩, by simp [reshape, hs, hreg], rfl, by simp [WF], ?_, ?_⟩
  · rw [asize_eq, asize_eq] at hs
    have h := (isRegular_iff _ _).1 hreg
    have : v = ⟨v.off, v.dims, rmStrides v.dims⟩ := by rw [← h]
    rw [this, rm_cells, rm_cells, hs]
  · intro ix jx hi hj hp
    have h := (isRegular_iff _ _).1 hreg
    simp only [cell]
    rw [h, dot_rmStrides _ _ hi.length, dot_rmStrides _ _ hj.length, hp]

/-- Reshape there and back is the identity. -/
theorem C11_reshape_back (v w : View) (dims : List Nat) (h : v.reshape dims = .ok w) :
    w.reshape v.dims = .ok v := by
  unfold reshape at h
  by_cases hs : asize dims = asize v.dims
  · simp only [hs, decide_true, Res.assrt_true, Res.ok_bind] at h
    obtain ⟨b, hb, h⟩ := Res.bind_eq_ok.1 h
    cases b with
    | false => simp at h
    | true =>
      simp only [Res.assrt_true, Res.ok_bind, Res.ok.injEq] at h
      have hr := (isRegular_iff _ _).1 hb
      have hr2 := (isRegular_iff dims (rmStrides dims)).2 rfl
      subst h
      simp only [reshape, hs, decide_true, Res.assrt_true, Res.ok_bind, hr2, ← hr]
  · simp [hs] at h

/-- Reshape succeeds only for regular views and dims of equal size; otherwise it throws. -/
theorem C11_reshape_refuses (v : View) (dims : List Nat) (hwf : v.WF)
    (h : asize dims ≠ asize v.dims ∨ v.strides ≠ rmStrides v.dims) : v.reshape dims = .throw := by
  unfold reshape
  by_cases hs : asize dims = asize v.dims
  · have h := h.resolve_left (by simp [hs])
    simp only [hs, decide_true, Res.assrt_true, Res.ok_bind]
    have h1 : isRegular v.strides v.dims ≠ .ok true := fun h' => h ((isRegular_iff _ _).1 h')
    unfold isRegular at h1 ⊢
    have hl : v.strides.length = v.dims.length := hwf
    simp only [hl, decide_true, Res.assrt_true, Res.ok_bind] at h1 ⊢
    have : regularLoop (v.strides.zip v.dims).reverse 1 = false := by
      cases hb : regularLoop (v.strides.zip v.dims).reverse 1 with
      | false => rfl
      | true => exact absurd (by rw [hb]) h1
    simp [this]
  · simp [hs]

example : (⟨5, [2, 6], [6, 1]⟩ : View).reshape [3, 4] = .ok ⟨5, [3, 4], [4, 1]⟩ := by decide
example : isRegular [6, 1] [2, 6] = .ok true ∧ asize [3, 4] = asize [2, 6] := by decide
example : (⟨5, [2, 6], [1, 2]⟩ : View).reshape [3, 4] = .throw := by decide

/-! ## C12 -/

/-- `permute_indices(p)` for a permutation `p`: axis `k` of the result is axis `p[k]` of the original.
Nothing outside the original view becomes reachable. -/
theorem C12_permute (v : View) (p : List Nat) (hwf : v.WF) (hp : p.Perm (List.range v.dims.length)) :
    ∃ w, v.permuteIndices p = .ok w ∧ w.WF ∧
      (∀ jx, InRange jx v.dims →
        InRange (p.map fun j => jx[j]?.getD 0) w.dims ∧ w.cell (p.map fun j => jx[j]?.getD 0) = v.cell jx) ∧
      (∀ ix, InRange ix w.dims →
        ∃ jx, InRange jx v.dims ∧ (p.map fun j => jx[j]?.getD 0) = ix ∧ w.cell ix = v.cell jx) := by
  have hwf' : v.strides.length = v.dims.length := hwf
  have hpl : p.length = v.dims.length := by simpa using hp.length_eq
  have hpm : ∀ j ∈ p, j < v.dims.length := fun j hj => List.mem_range.1 (hp.mem_iff.1 hj)
  have h1 := gvPermute_ok v.dims p 0 hpl hpm
  have h2 := gvPermute_ok v.strides p 0 (by omega) (by simpa [hwf'] using hpm)
  refine ⟨⟨v.off, p.map fun j => v.dims[j]?.getD 0, p.map fun j => v.strides[j]?.getD 0⟩,
    by simp [permuteIndices, h1, h2], by simp [WF], ?_⟩
  have key : ∀ jx, InRange jx v.dims →
        InRange (p.map fun j => jx[j]?.getD 0) (p.map fun j => v.dims[j]?.getD 0) ∧
        (View.mk v.off (p.map fun j => v.dims[j]?.getD 0) (p.map fun j => v.strides[j]?.getD 0)).cell
          (p.map fun j => jx[j]?.getD 0) = v.cell jx := by
    intro jx hj
    refine ⟨inRange_perm hj hpm, ?_⟩
    simp only [cell]
    rw [dot_perm _ _ _ (by rw [hwf', hj.length]) (by rw [hwf']; exact hp)]
  refine ⟨key, ?_⟩
  intro ix hix
  -- preimage: entry `j` of `jx` is entry `idxOf j p` of `ix`
  have hil : ix.length = v.dims.length := by rw [hix.length]; simp [hpl]
  have hmem : ∀ j, j < v.dims.length → j ∈ p := fun j hj => hp.mem_iff.2 (List.mem_range.2 hj)
  have hnd : p.Nodup := hp.nodup_iff.2 List.nodup_range
  have hjx : InRange ((List.range v.dims.length).map fun j => ix[p.idxOf j]?.getD 0) v.dims := by
    apply inRange_of_getD (by simp)
    intro j hj
    have hidx : p.idxOf j < p.length := List.idxOf_lt_length_of_mem (hmem j hj)
    have := inRange_getD hix (p.idxOf j) (by simpa using hidx)
    simpa [hj, hidx, List.getElem?_eq_getElem] using this
  have hback : (p.map fun k => ((List.range v.dims.length).map fun j => ix[p.idxOf j]?.getD 0)[k]?.getD 0) = ix := by
    apply List.ext_getElem
    · simp [hpl, hil]
    · intro n h1 h2
      have hn : n < p.length := by simpa using h1
      have hpn : p[n] < v.dims.length := hpm _ (List.getElem_mem hn)
      have : p.idxOf p[n] = n := hnd.idxOf_getElem n hn
      simp [hpn, this, List.getElem?_eq_getElem h2]
  exact ⟨_, hjx, hback, by rw [← (key _ hjx).2, hback]⟩

/-- A list that is too short or too long is refused. -/
theorem C12_permute_refuses (v : View) (p : List Nat) (h : p.length ≠ v.dims.length) :
    v.permuteIndices p = .throw := by
  simp [permuteIndices, gvPermute, h]

theorem swapLast2_append (l : List Nat) (a b : Nat) : swapLast2 (l ++ [a, b]) = l ++ [b, a] := by
  simp [swapLast2]

theorem exists_last2 {α} (l : List α) (h : 2 ≤ l.length) : ∃ k a b, l = k ++ [a, b] := by
  obtain ⟨k, t, rfl, hk⟩ := split_le l (l.length - 2) (by omega)
  match t, hk with
  | [a, b], _ => exact ⟨k, a, b, rfl⟩
  | [], hk => simp at hk h; omega
  | [a], hk => simp at hk; simp at h; omega
  | a :: b :: c :: t, hk => simp at hk; omega

/-- `transp()` swaps the last two axes, bijectively on cells; applied twice it is the identity. -/
theorem C12_transp (v : View) (hwf : v.WF) (h : 2 ≤ v.dims.length) :
    ∃ w, v.transp = .ok w ∧ w.dims = swapLast2 v.dims ∧ RelabelsBij w v swapLast2 ∧ w.transp = .ok v := by
  obtain ⟨off, dims, strides⟩ := v
  simp only [WF] at hwf h
  obtain ⟨A, d1, d2, rfl⟩ := exists_last2 dims h
  obtain ⟨S, s1, s2, rfl⟩ := exists_last2 strides (by rw [hwf]; exact h)
  simp only [List.length_append, List.length_cons, List.length_nil, Nat.zero_add, Nat.reduceAdd] at hwf h
  have hl : S.length = A.length := by omega
  refine ⟨⟨off, A ++ [d2, d1], S ++ [s2, s1]⟩, by simp [transp, swapLast2_append],
    by simp [swapLast2_append], ?_, by simp [transp, swapLast2_append]⟩
  have hsplit : ∀ ix d1 d2, InRange ix (A ++ [d1, d2]) → ∃ a i j, ix = a ++ [i, j] ∧ a.length = A.length ∧
      InRange a A ∧ i < d1 ∧ j < d2 := by
    intro ix d1 d2 hix
    obtain ⟨a, i, b, rfl, ha, hA, hi, hb⟩ := inRange_split hix
    obtain ⟨j, rfl⟩ := List.length_eq_one_iff.1 (by simpa using hb.length)
    exact ⟨a, i, j, rfl, ha, hA, hi, (inRange_cons.1 hb).1⟩
  refine ⟨⟨by simp [WF, hl], ?_⟩, ?_, ?_⟩
  · intro ix hix
    obtain ⟨a, i, j, rfl, ha, hA, hi, hj⟩ := hsplit ix _ _ hix
    simp only at hix ⊢
    rw [swapLast2_append]
    refine ⟨(inRange_append ha).2 ⟨hA, inRange_cons.2 ⟨hj, inRange_cons.2 ⟨hi, inRange_nil⟩⟩⟩, ?_⟩
    simp [cell, dot_append S _ a _ (by omega)]
    omega
  · intro ix jx hi hj
    obtain ⟨a, i, j, rfl, ha, -⟩ := hsplit ix _ _ hi
    obtain ⟨b, k, l, rfl, hb, -⟩ := hsplit jx _ _ hj
    rw [swapLast2_append, swapLast2_append]
    intro he
    obtain ⟨h1, h2⟩ := List.append_inj he (by omega)
    simp at h2
    simp [h1, h2]
  · intro jx hj
    obtain ⟨a, i, j, rfl, ha, hA, hi, hj⟩ := hsplit jx _ _ hj
    exact ⟨a ++ [j, i], (inRange_append ha).2 ⟨hA, inRange_cons.2 ⟨hj, inRange_cons.2 ⟨hi, inRange_nil⟩⟩⟩,
      swapLast2_append ..⟩

/-- Fewer than two axes: refused. -/
theorem C12_transp_refuses (v : View) (h : v.dims.length < 2) : v.transp = .throw := by
  simp [transp, Nat.not_le.2 h]

/-- Exchange of entries `a` and `b`. -/
def swapAt (a b : Nat) (l : List Nat) : List Nat :=
  (l.set a (l[b]?.getD 0)).set b (l[a]?.getD 0)

theorem swapAt_length (a b : Nat) (l : List Nat) : (swapAt a b l).length = l.length := by simp [swapAt]

theorem swapAt_getD (a b : Nat) (l : List Nat) (ha : a < l.length) (hb : b < l.length) (j : Nat) :
    (swapAt a b l)[j]?.getD 0 = l[if j = b then a else if j = a then b else j]?.getD 0 := by
  unfold swapAt
  rw [List.getElem?_set]
  by_cases h : b = j
  · subst h; simp [hb]
  · rw [if_neg h, List.getElem?_set]
    by_cases h' : a = j
    · subst h'; simp [ha, Ne.symm h]
    · simp [h', Ne.symm h, Ne.symm h']

theorem ext_getD {l k : List Nat} (hl : l.length = k.length) (h : ∀ j : Nat, l[j]?.getD 0 = k[j]?.getD 0) : l = k := by
  apply List.ext_getElem hl
  intro i h1 h2
  simpa [List.getElem?_eq_getElem, h1, h2] using h i

theorem swapAt_swapAt (a b : Nat) (l : List Nat) (ha : a < l.length) (hb : b < l.length) :
    swapAt a b (swapAt a b l) = l := by
  apply ext_getD (by simp [swapAt_length])
  intro j
  rw [swapAt_getD _ _ _ (by rwa [swapAt_length]) (by rwa [swapAt_length]), swapAt_getD _ _ _ ha hb]
  congr 2
  split
  · subst_vars; split
    · subst_vars; rfl
    · simp
  · split
    · subst_vars; simp
    · rfl

theorem swapAt_eq_map (a b : Nat) (l : List Nat) (ha : a < l.length) (hb : b < l.length) :
    swapAt a b l = (swapAt a b (List.range l.length)).map fun j => l[j]?.getD 0 := by
  apply List.ext_getElem (by simp [swapAt_length])
  intro i h1 h2
  have hi : i < l.length := by simpa [swapAt_length] using h1
  have hp := swapAt_getD a b (List.range l.length) (by simpa) (by simpa) i
  have hr : i < (swapAt a b (List.range l.length)).length := by simpa [swapAt_length] using hi
  rw [List.getElem?_eq_getElem hr] at hp
  have hq := swapAt_getD a b l ha hb i
  rw [List.getElem?_eq_getElem h1] at hq
  simp only [Option.getD_some] at hp hq
  rw [List.getElem_map, hq, hp]
  have hlt : (if i = b then a else if i = a then b else i) < l.length := by split <;> [exact ha; (split <;> [exact hb; exact hi])]
  simp [hlt]

theorem swapAt_range_perm (a b n : Nat) (ha : a < n) (hb : b < n) :
    (swapAt a b (List.range n)).Perm (List.range n) := by
  have hlt : ∀ j ∈ swapAt a b (List.range n), j < n := by
    intro j hj
    unfold swapAt at hj
    rcases List.mem_or_eq_of_mem_set hj with hj | rfl
    · rcases List.mem_or_eq_of_mem_set hj with hj | rfl
      · simpa using hj
      · simp [hb]
    · simp [ha]
  refine perm_range_of_nodup (by simp [swapAt_length]) ?_ hlt
  have he : swapAt a b (List.range n) = (List.range n).map fun j => if j = b then a else if j = a then b else j := by
    apply ext_getD (by simp [swapAt_length])
    intro j
    rw [swapAt_getD _ _ _ (by simpa) (by simpa)]
    by_cases hj : j < n
    · have hlt : (if j = b then a else if j = a then b else j) < n := by
        split <;> [exact ha; (split <;> [exact hb; exact hj])]
      simp [hlt, hj]
    · have h1 : j ≠ b := by omega
      have h2 : j ≠ a := by omega
      simp [h1, h2, hj]
  rw [he]
  refine List.Nodup.map_on ?_ List.nodup_range
  intro x _ y _ hxy
  split_ifs at hxy <;> omega

/-- `transp(a,b)` exchanges axes `a` and `b`, bijectively on cells; applied twice it is the
identity. -/
theorem C12_transp_axes (v : View) (a b : Nat) (hwf : v.WF) (ha : a < v.dims.length) (hb : b < v.dims.length) :
    ∃ w, v.transpAB a b = .ok w ∧ w.dims = swapAt a b v.dims ∧ RelabelsBij w v (swapAt a b) ∧
      w.transpAB a b = .ok v := by
  have hwf' : v.strides.length = v.dims.length := hwf
  have hok : ∀ v : View, v.strides.length = v.dims.length → a < v.dims.length → b < v.dims.length →
      v.transpAB a b = .ok ⟨v.off, swapAt a b v.dims, swapAt a b v.strides⟩ := by
    intro v h ha hb
    have ha' : a < v.strides.length := by omega
    have hb' : b < v.strides.length := by omega
    simp [transpAB, ha, hb, Res.get, ha', hb', swapAt]
  have ha' : a < v.strides.length := by omega
  have hb' : b < v.strides.length := by omega
  refine ⟨_, hok v hwf' ha hb, rfl, ?_, ?_⟩
  · have hperm := swapAt_range_perm a b v.dims.length ha hb
    have key : ∀ jx, InRange jx v.dims → InRange (swapAt a b jx) (swapAt a b v.dims) ∧
        v.off + dot (swapAt a b v.strides) (swapAt a b jx) = v.cell jx := by
      intro jx hj
      have hjl := hj.length
      rw [swapAt_eq_map a b v.dims ha hb, swapAt_eq_map a b v.strides ha' hb',
        swapAt_eq_map a b jx (by omega) (by omega), hjl, hwf']
      refine ⟨inRange_perm hj fun j hj => List.mem_range.1 (hperm.mem_iff.1 hj), ?_⟩
      rw [dot_perm _ _ _ (by omega) (by rw [hwf']; exact hperm)]
      rfl
    refine ⟨⟨by simp [WF, swapAt_length, hwf'], ?_⟩, ?_, ?_⟩
    · intro ix hix
      have hil : ix.length = v.dims.length := by simpa [swapAt_length] using hix.length
      have hin : InRange (swapAt a b ix) v.dims := by
        apply inRange_of_getD (by simp [swapAt_length, hil])
        intro j hj
        rw [swapAt_getD a b ix (by omega) (by omega)]
        have hlt : (if j = b then a else if j = a then b else j) < v.dims.length := by
          split <;> [exact ha; (split <;> [exact hb; exact hj])]
        have := inRange_getD hix _ (by simpa [swapAt_length] using hlt)
        rw [swapAt_getD _ _ _ ha hb] at this
        convert this using 3
        split
        · subst_vars; split
          · subst_vars; rfl
          · simp
        · split
          · subst_vars; simp
          · rfl
      refine ⟨hin, ?_⟩
      have := (key _ hin).2
      rw [swapAt_swapAt a b ix (by omega) (by omega)] at this
      exact this
    · intro ix jx hi hj he
      have hil : ix.length = v.dims.length := by simpa [swapAt_length] using hi.length
      have hjl : jx.length = v.dims.length := by simpa [swapAt_length] using hj.length
      rw [← swapAt_swapAt a b ix (by omega) (by omega), he, swapAt_swapAt a b jx (by omega) (by omega)]
    · intro jx hj
      have hjl := hj.length
      exact ⟨_, (key jx hj).1, swapAt_swapAt a b jx (by omega) (by omega)⟩
  · rw [hok _ (by simp [swapAt_length, hwf']) (by simpa [swapAt_length]) (by simpa [swapAt_length])]
    simp only [swapAt_swapAt a b v.dims ha hb, swapAt_swapAt a b v.strides ha' hb']

/-- Axis numbers that are too large are refused. -/
theorem C12_transp_axes_refuses (v : View) (a b : Nat) (h : v.dims.length ≤ a ∨ v.dims.length ≤ b) :
    v.transpAB a b = .throw := by
  unfold transpAB
  by_cases ha : a < v.dims.length
  · simp [ha, Nat.not_lt.2 (h.resolve_left (by omega))]
  · simp [ha]

/-- `with_decreasing_strides`/`falling_strides` without zero strides: a permutation of the axes with
non-increasing strides. -/
theorem C12_decreasing_strides_partial (v : View) (hwf : v.WF) (hpos : ∀ s ∈ v.strides, 0 < s) :
    ∃ w p, v.withDecreasingStrides = .ok w ∧ p.Perm (List.range v.dims.length) ∧
      v.permuteIndices p = .ok w ∧ w.strides.Pairwise (· ≥ ·) := by
  have hwf' : v.strides.length = v.dims.length := hwf
  obtain ⟨hp, hsort⟩ := descOrdering_spec v.strides hpos
  rw [hwf'] at hp
  have hpl : (descOrdering v.strides).length = v.dims.length := by simpa using hp.length_eq
  have hpm : ∀ j ∈ descOrdering v.strides, j < v.dims.length := fun j hj => List.mem_range.1 (hp.mem_iff.1 hj)
  have h1 := gvPermute_ok v.dims (descOrdering v.strides) 0 hpl hpm
  have h2 := gvPermute_ok v.strides (descOrdering v.strides) 0 (by omega) (by simpa [hwf'] using hpm)
  have hw : v.permuteIndices (descOrdering v.strides) =
      .ok ⟨v.off, (descOrdering v.strides).map fun j => v.dims[j]?.getD 0,
        (descOrdering v.strides).map fun j => v.strides[j]?.getD 0⟩ := by
    simp only [permuteIndices, h1, h2, Res.ok_bind]
  refine ⟨_, descOrdering v.strides, hw, hp, hw, ?_⟩
  simp only [List.pairwise_map]
  exact hsort.imp fun h => by omega

/-- With zero strides the result is not a permutation of the axes: here axis 0 is taken twice and
axis 1 lost, so a size-6 view becomes a size-4 one. -/
theorem C12_decreasing_strides_fails :
    (⟨0, [2, 3], [0, 0]⟩ : View).withDecreasingStrides = .ok ⟨0, [2, 2], [0, 0]⟩ := by decide


example : (⟨3, [2, 3, 4], [12, 4, 1]⟩ : View).transp = .ok ⟨3, [2, 4, 3], [12, 1, 4]⟩ := by decide
example : (⟨3, [2, 3, 4], [12, 4, 1]⟩ : View).transpAB 0 2 = .ok ⟨3, [4, 3, 2], [1, 4, 12]⟩ := by decide
example : (⟨3, [2, 3, 4], [12, 4, 1]⟩ : View).permuteIndices [2, 0, 1] = .ok ⟨3, [4, 2, 3], [1, 12, 4]⟩ := by
  decide
example : (⟨3, [2, 3, 4], [12, 4, 1]⟩ : View).WF ∧ [2, 0, 1].Perm (List.range 3) := by decide
example : (⟨3, [4, 2, 3], [1, 12, 4]⟩ : View).withDecreasingStrides = .ok ⟨3, [2, 3, 4], [12, 4, 1]⟩ := by decide

/-! ## C13 -/

/-- `slice(d,i)` fixes axis `d` at `i`. -/
theorem C13_slice (v : View) (d i : Nat) (hwf : v.WF) (hd : d < v.dims.length) (hi : i < v.dims[d]) :
    ∃ w, v.slice d i = .ok w ∧ w.dims = v.dims.eraseIdx d ∧
      Relabels w v (fun ix => ix.take d ++ i :: ix.drop d) := by
  obtain ⟨off, dims, strides⟩ := v
  simp only [WF] at hwf hd hi ⊢
  obtain ⟨A, n, B, rfl, rfl, hn⟩ := split_at dims d hd
  obtain ⟨S, s, T, rfl, hS, -⟩ := split_at strides A.length (by omega)
  have hT : T.length = B.length := by simp at hwf; omega
  rw [hn] at hi
  refine ⟨⟨off + s * i, A ++ B, S ++ T⟩, ?_, (eraseIdx_split ..).symm, by simp [WF, hS, hT], ?_⟩
  · simp only [slice, ← hS, get_split, gvRemove_split, Res.ok_bind]
    rw [hS, gvRemove_split]; simp
  · intro ix hix
    obtain ⟨a, b, rfl, ha, hA, hB⟩ := inRange_split2 hix
    simp only [← ha, List.take_left, List.drop_left]
    refine ⟨(inRange_append ha).2 ⟨hA, inRange_cons.2 ⟨hi, hB⟩⟩, ?_⟩
    simp [cell, dot_append S _ a _ (by omega)]
    ring

/-- `slice` does not check the position: one past the end addresses a cell of no in-range index. -/
theorem C13_slice_unchecked_fails :
    (⟨0, [2, 3], [3, 1]⟩ : View).slice 0 2 = .ok ⟨6, [3], [1]⟩ ∧
    (⟨6, [3], [1]⟩ : View).cell [0] ∉ (⟨0, [2, 3], [3, 1]⟩ : View).cells := by decide

/-- `slices(d,i,n)`: `n` consecutive positions of axis `d` from `i`. -/
theorem C13_slices (v : View) (d i n : Nat) (hwf : v.WF) (hd : d < v.dims.length) (hi : i + n ≤ v.dims[d]) :
    ∃ w, v.slices d i n = .ok w ∧ w.dims = v.dims.set d n ∧
      Relabels w v (fun ix => ix.modify d (· + i)) := by
  obtain ⟨off, dims, strides⟩ := v
  simp only [WF] at hwf hd hi ⊢
  obtain ⟨A, m, B, rfl, rfl, hn⟩ := split_at dims d hd
  obtain ⟨S, s, T, rfl, hS, -⟩ := split_at strides A.length (by omega)
  have hT : T.length = B.length := by simp at hwf; omega
  rw [hn] at hi
  refine ⟨⟨off + s * i, A ++ n :: B, S ++ s :: T⟩, ?_, by simp, by simp [WF, hS, hT], ?_⟩
  · simp only [slices, gvSet_split]
    rw [← hS, get_split]; simp
  · intro ix hix
    obtain ⟨a, j, b, rfl, ha, hA, hj, hB⟩ := inRange_split hix
    have hm : (a ++ j :: b).modify A.length (· + i) = a ++ (j + i) :: b := by
      rw [← ha, modify_split]
    simp only [hm]
    refine ⟨(inRange_append ha).2 ⟨hA, inRange_cons.2 ⟨by omega, hB⟩⟩, ?_⟩
    simp [cell, dot_append S _ a _ (by omega)]
    ring

/-- `slice(ix)` fixes the leading axes. -/
theorem C13_slice_prefix (v : View) (kx : List Nat) (hwf : v.WF) (hk : kx.length ≤ v.dims.length)
    (hin : InRange kx (v.dims.take kx.length)) :
    ∃ w, v.sliceIx kx = .ok w ∧ w.dims = v.dims.drop kx.length ∧ Relabels w v (fun ix => kx ++ ix) := by
  obtain ⟨off, dims, strides⟩ := v
  simp only [WF] at hwf hk hin ⊢
  obtain ⟨A, B, rfl, hA⟩ := split_le dims _ hk
  obtain ⟨S, T, rfl, hS⟩ := split_le strides kx.length (by omega)
  have hT : T.length = B.length := by simp at hwf; omega
  rw [← hA, List.take_left] at hin
  have hc0 : ∀ (l k : List Nat), gvChunk (l ++ k) 0 l.length = .ok l := by
    intro l k
    have h1 : ¬ ((l.length : Int) = -1) := by omega
    have h2 : ¬ ((l.length : Int) + k.length < l.length) := by omega
    simp [gvChunk, h1, h2]
  have hc1 : ∀ (l k : List Nat), gvChunk (l ++ k) l.length (-1) = .ok k := by
    intro l k
    have h1 : ¬ ((l.length : Int) < 0) := by omega
    have h2 : ((l.length : Int) + k.length - l.length) = k.length := by omega
    have h3 : ¬ ((k.length : Int) < 0) := by omega
    simp [gvChunk, h1, h2, h3]
  have e1 := hc0 S T
  have e2 := hc1 A B
  have e3 := hc1 S T
  rw [hS] at e1 e3
  rw [hA] at e2
  refine ⟨⟨off + dot S kx, B, T⟩, ?_, by rw [← hA]; simp, hT, ?_⟩
  · simp [sliceIx, e1, e2, e3, offs_eq S kx (by omega)]
  · intro ix hix
    refine ⟨(inRange_append hA.symm).2 ⟨hin, hix⟩, ?_⟩
    simp [cell, dot_append S _ kx _ hS]
    ring

/-- `row(i)`. -/
theorem C13_row (v : View) (i d0 d1 : Nat) (hwf : v.WF) (hd : v.dims = [d0, d1]) (hi : i < d0) :
    ∃ w, v.row i = .ok w ∧ w.dims = [d1] ∧ Relabels w v (fun ix => i :: ix) := by
  obtain ⟨off, dims, strides⟩ := v
  simp only [WF] at hwf hd ⊢
  subst hd
  obtain ⟨s0, s1, rfl⟩ := List.length_eq_two.1 hwf
  refine ⟨⟨off + s0 * i, [d1], [s1]⟩, by simp [row, hi, shift_nat], rfl, rfl, ?_⟩
  intro ix hix
  exact ⟨inRange_cons.2 ⟨hi, hix⟩, by simp [cell]; ring⟩

/-- `rows(i,n)`. -/
theorem C13_rows (v : View) (i n d0 d1 : Nat) (hwf : v.WF) (hd : v.dims = [d0, d1]) (hi : i + n ≤ d0) :
    ∃ w, v.rows i n = .ok w ∧ w.dims = [n, d1] ∧ Relabels w v (fun ix => ix.modify 0 (· + i)) := by
  obtain ⟨off, dims, strides⟩ := v
  simp only [WF] at hwf hd ⊢
  subst hd
  obtain ⟨s0, s1, rfl⟩ := List.length_eq_two.1 hwf
  have h3 : (i : Int) + n ≤ d0 := by omega
  refine ⟨⟨off + s0 * i, [n, d1], [s0, s1]⟩, by simp [rows, h3, shift_nat], rfl, rfl, ?_⟩
  intro ix hix
  obtain ⟨a, j, b, rfl, ha, hA, hj, hB⟩ := inRange_split (A := []) hix
  have : a = [] := List.length_eq_zero_iff.1 ha
  subst this
  refine ⟨by simpa using inRange_cons.2 ⟨by omega, hB⟩, by simp [cell]; ring⟩

/-- `col(i)`. -/
theorem C13_col (v : View) (i d0 d1 : Nat) (hwf : v.WF) (hd : v.dims = [d0, d1]) (hi : i < d1) :
    ∃ w, v.col i = .ok w ∧ w.dims = [d0] ∧ Relabels w v (fun ix => ix ++ [i]) := by
  obtain ⟨off, dims, strides⟩ := v
  simp only [WF] at hwf hd ⊢
  subst hd
  obtain ⟨s0, s1, rfl⟩ := List.length_eq_two.1 hwf
  refine ⟨⟨off + s1 * i, [d0], [s0]⟩, by simp [col, hi, shift_nat], rfl, rfl, ?_⟩
  intro ix hix
  obtain ⟨j, rfl⟩ := List.length_eq_one_iff.1 (by simpa using hix.length)
  exact ⟨inRange_cons.2 ⟨(inRange_cons.1 hix).1, inRange_cons.2 ⟨hi, inRange_nil⟩⟩, by simp [cell]; ring⟩

/-- `cols(i,n)`. -/
theorem C13_cols (v : View) (i n d0 d1 : Nat) (hwf : v.WF) (hd : v.dims = [d0, d1]) (hi : i + n ≤ d1) :
    ∃ w, v.cols i n = .ok w ∧ w.dims = [d0, n] ∧ Relabels w v (fun ix => ix.modify 1 (· + i)) := by
  obtain ⟨off, dims, strides⟩ := v
  simp only [WF] at hwf hd ⊢
  subst hd
  obtain ⟨s0, s1, rfl⟩ := List.length_eq_two.1 hwf
  have h3 : (i : Int) + n ≤ d1 := by omega
  refine ⟨⟨off + s1 * i, [d0, n], [s0, s1]⟩, by simp [cols, h3, shift_nat], rfl, rfl, ?_⟩
  intro ix hix
  obtain ⟨j, k, rfl⟩ := List.length_eq_two.1 (by simpa using hix.length)
  rw [inRange_cons, inRange_cons] at hix
  refine ⟨?_, by simp [cell]; ring⟩
  simp only [List.modify_succ_cons, List.modify_zero_cons]
  exact inRange_cons.2 ⟨hix.1, inRange_cons.2 ⟨by omega, inRange_nil⟩⟩

/-- Row and column positions too large are refused, and so are views that are not matrices. -/
theorem C13_row_refuses (v : View) (i : Int) (hwf : v.WF)
    (h : v.dims.length ≠ 2 ∨ ∃ d0 d1, v.dims = [d0, d1] ∧ (d0 : Int) ≤ i) : v.row i = .throw := by
  obtain ⟨off, dims, strides⟩ := v
  simp only [WF] at hwf h ⊢
  rcases h with h | ⟨d0, d1, rfl, hi⟩
  · match dims, h with
    | [], _ => rfl
    | [a], _ => rfl
    | a :: b :: c :: r, _ => rfl
    | [a, b], h => simp at h
  · obtain ⟨s0, s1, rfl⟩ := List.length_eq_two.1 hwf
    simp [row, Int.not_lt.2 hi]

/-- Negative positions are accepted and address cells before the view. -/
theorem C13_row_negative_fails :
    (⟨6, [2, 3], [3, 1]⟩ : View).row (-1) = .ok ⟨3, [3], [1]⟩ ∧
    (⟨3, [3], [1]⟩ : View).cell [0] ∉ (⟨6, [2, 3], [3, 1]⟩ : View).cells := by decide

theorem gixLe_iff (x y : List Nat) : gixLe x y = true ↔ List.Forall₂ (· ≤ ·) x y := by
  induction x generalizing y with
  | nil => cases y <;> simp [gixLe]
  | cons a x ih =>
    cases y with
    | nil => simp [gixLe]
    | cons b y =>
      rw [List.forall₂_cons, ← ih]
      simp [gixLe]
      tauto

theorem dot_add (s o ix : List Nat) (h : o.length = ix.length) :
    dot s (List.zipWith (· + ·) o ix) = dot s o + dot s ix := by
  induction s generalizing o ix with
  | nil => simp
  | cons a s ih =>
    match o, ix, h with
    | [], [], _ => simp
    | x :: o, y :: ix, h =>
      simp only [List.zipWith_cons_cons, dot_cons, ih o ix (by simpa using h)]
      ring

theorem inRange_add (o ix dims D : List Nat) (hle : List.Forall₂ (· ≤ ·) (List.zipWith (· + ·) o dims) D)
    (hl : dims.length = o.length) (h : InRange ix dims) : InRange (List.zipWith (· + ·) o ix) D := by
  induction h generalizing o D with
  | nil =>
    have : o = [] := List.length_eq_zero_iff.1 hl.symm
    subst this
    have hD : D = [] := by simpa using hle
    subst hD
    exact inRange_nil
  | @cons i d is ds hi _ ih =>
    cases o with
    | nil => simp at hl
    | cons x o =>
      simp only [List.zipWith_cons_cons] at hle ⊢
      obtain ⟨y, D', hy, hD, rfl⟩ := List.forall₂_cons_left_iff.1 hle
      exact inRange_cons.2 ⟨by omega, ih o D' hD (by simpa using hl)⟩

/-- `block(dims,offs)` succeeds exactly when the block fits, axis by axis, and then addresses the
parent's cells shifted by `offs`. -/
theorem C13_block (v : View) (dims o : List Nat) (hwf : v.WF) :
    ((dims.length = o.length ∧ List.Forall₂ (· ≤ ·) (List.zipWith (· + ·) o dims) v.dims) →
      ∃ w, v.block dims o = .ok w ∧ w.dims = dims ∧ Relabels w v (fun ix => List.zipWith (· + ·) o ix)) ∧
    (¬ (dims.length = o.length ∧ List.Forall₂ (· ≤ ·) (List.zipWith (· + ·) o dims) v.dims) →
      v.block dims o = .throw) := by
  have hwf' : v.strides.length = v.dims.length := hwf
  constructor
  · rintro ⟨hl, hle⟩
    have hle' := (gixLe_iff _ _).2 hle
    have hlen := hle.length_eq
    rw [List.length_zipWith] at hlen
    refine ⟨⟨v.off + dot v.strides o, dims, v.strides⟩, ?_, rfl, by simp [WF]; omega, ?_⟩
    · simp [block, hl, hle', offs_eq v.strides o (by omega)]
    · intro ix hix
      have hil := hix.length
      refine ⟨inRange_add o ix dims v.dims hle hl hix, ?_⟩
      simp only at hil
      simp only [cell]
      rw [dot_add _ _ _ (by omega)]
      omega
  · intro h
    unfold block
    by_cases hl : dims.length = o.length
    · have : gixLe (List.zipWith (· + ·) o dims) v.dims = false := by
        cases hb : gixLe (List.zipWith (· + ·) o dims) v.dims with
        | false => rfl
        | true => exact absurd ⟨hl, (gixLe_iff _ _).1 hb⟩ h
      simp [hl, this]
    · simp [hl]

/-- `block(dims)` with dims fitting axis by axis is the leading block. -/
theorem C13_block_dims_partial (v : View) (dims : List Nat) (hwf : v.WF)
    (hle : List.Forall₂ (· ≤ ·) dims v.dims) :
    ∃ w, v.blockDims dims = .ok w ∧ w.dims = dims ∧ Relabels w v id := by
  have hg : ∀ x y : List Nat, List.Forall₂ (· ≤ ·) x y → gvLe x y = true := by
    intro x y h
    induction h with
    | nil => rfl
    | cons h _ ih => rw [gvLe]; split <;> simp [ih, h]
  refine ⟨⟨v.off, dims, v.strides⟩, by simp [blockDims, hg _ _ hle], rfl, ?_, ?_⟩
  · have := hle.length_eq
    have hwf' : v.strides.length = v.dims.length := hwf
    simp [WF]; omega
  · intro ix hix
    refine ⟨?_, rfl⟩
    simp only at hix
    have key : ∀ (x y ix : List Nat), List.Forall₂ (· ≤ ·) x y → InRange ix x → InRange ix y := by
      intro x y ix h hix
      induction h generalizing ix with
      | nil => exact hix
      | cons h _ ih =>
        obtain ⟨i, is, hi, his, rfl⟩ := List.forall₂_cons_right_iff.1 hix
        exact inRange_cons.2 ⟨Nat.lt_of_lt_of_le hi h, ih is his⟩
    exact key _ _ _ hle hix

/-- The check of `block(dims)` is lexicographic: a block much wider than the parent is accepted and
addresses cells outside it. -/
theorem C13_block_dims_fails :
    (⟨0, [2, 3], [3, 1]⟩ : View).blockDims [1, 100] = .ok ⟨0, [1, 100], [3, 1]⟩ ∧
    InRange [0, 99] [1, 100] ∧
    (⟨0, [1, 100], [3, 1]⟩ : View).cell [0, 99] ∉ (⟨0, [2, 3], [3, 1]⟩ : View).cells := by
  refine ⟨by decide, by unfold InRange; simp, by decide⟩

/-- `diag()` of a square matrix view. -/
theorem C13_diag (v : View) (n : Nat) (hwf : v.WF) (hd : v.dims = [n, n]) :
    ∃ w, v.diag = .ok w ∧ w.dims = [n] ∧ Relabels w v (fun ix => ix ++ ix) := by
  obtain ⟨off, dims, strides⟩ := v
  simp only [WF] at hwf hd ⊢
  subst hd
  obtain ⟨s0, s1, rfl⟩ := List.length_eq_two.1 hwf
  refine ⟨⟨off, [n], [s0 + s1]⟩, by simp [diag], rfl, rfl, ?_⟩
  intro ix hix
  obtain ⟨j, rfl⟩ := List.length_eq_one_iff.1 (by simpa using hix.length)
  have := (inRange_cons.1 hix).1
  exact ⟨inRange_cons.2 ⟨this, inRange_cons.2 ⟨this, inRange_nil⟩⟩, by simp [cell]; ring⟩

/-- `squeeze(d)` drops an axis of extent one. -/
theorem C13_squeeze (v : View) (d : Nat) (hwf : v.WF) (hd : d < v.dims.length) (h1 : v.dims[d] = 1) :
    ∃ w, v.squeeze d = .ok w ∧ w.dims = v.dims.eraseIdx d ∧
      RelabelsBij w v (fun ix => ix.take d ++ 0 :: ix.drop d) := by
  obtain ⟨off, dims, strides⟩ := v
  simp only [WF] at hwf hd h1 ⊢
  obtain ⟨A, n, B, rfl, rfl, hn⟩ := split_at dims d hd
  obtain ⟨S, s, T, rfl, hS, -⟩ := split_at strides A.length (by omega)
  have hT : T.length = B.length := by simp at hwf; omega
  rw [hn] at h1
  subst h1
  refine ⟨⟨off, A ++ B, S ++ T⟩, ?_, (eraseIdx_split ..).symm, ⟨⟨by simp [WF, hS, hT], ?_⟩, ?_, ?_⟩⟩
  · simp only [squeeze, get_split, gvRemove_split, Res.ok_bind, decide_true, Res.assrt_true]
    rw [← hS, gvRemove_split]; simp
  · intro ix hix
    obtain ⟨a, b, rfl, ha, hA, hB⟩ := inRange_split2 hix
    simp only [← ha, List.take_left, List.drop_left]
    refine ⟨(inRange_append ha).2 ⟨hA, inRange_cons.2 ⟨by omega, hB⟩⟩, ?_⟩
    simp [cell, dot_append S _ a _ (by omega)]
  · intro ix jx hix hjx
    obtain ⟨a, b, rfl, ha, hA, hB⟩ := inRange_split2 hix
    obtain ⟨a', b', rfl, ha', hA', hB'⟩ := inRange_split2 hjx
    have e : ∀ (x y : List Nat), x.length = A.length →
        (x ++ y).take A.length ++ 0 :: (x ++ y).drop A.length = x ++ 0 :: y := by
      intro x y h; simp [← h]
    simp only [e a b ha, e a' b' ha']
    intro he
    obtain ⟨e1, e2⟩ := List.append_inj he (by omega)
    simp at e2
    rw [e1, e2]
  · intro jx hjx
    obtain ⟨a, i, b, rfl, ha, hA, hi, hB⟩ := inRange_split hjx
    refine ⟨a ++ b, (inRange_append ha).2 ⟨hA, hB⟩, ?_⟩
    have : i = 0 := by omega
    simp only [← ha, List.take_left, List.drop_left, this]

/-- An axis of another extent is refused. -/
theorem C13_squeeze_refuses (v : View) (d : Nat) (hd : d < v.dims.length) (h1 : v.dims[d] ≠ 1) :
    v.squeeze d = .throw := by
  simp [squeeze, Res.get, List.getElem?_eq_getElem hd, h1]

/-- Inserting an axis of extent `n` and any stride `s`; with `n = 1` or `s = 0` every index of the
result addresses the cell of the original with that axis dropped. -/
theorem insert_axis (off : Nat) (A B S T : List Nat) (n s : Nat) (hS : S.length = A.length)
    (hT : T.length = B.length) (h : n = 1 ∨ s = 0) :
    Relabels ⟨off, A ++ n :: B, S ++ s :: T⟩ ⟨off, A ++ B, S ++ T⟩ (fun ix => ix.eraseIdx A.length) := by
  refine ⟨by simp [WF, hS, hT], ?_⟩
  intro ix hix
  obtain ⟨a, i, b, rfl, ha, hA, hi, hB⟩ := inRange_split hix
  have he : (a ++ i :: b).eraseIdx A.length = a ++ b := by rw [← ha, eraseIdx_split]
  simp only [he]
  refine ⟨(inRange_append ha).2 ⟨hA, hB⟩, ?_⟩
  simp only [cell, dot_append S _ a _ (show S.length = a.length by omega), dot_cons]
  have : s * i = 0 := by
    rcases h with rfl | rfl
    · have : i = 0 := by omega
      simp [this]
    · simp
  omega

/-- `insert_dim(d,n)`: a broadcast axis; the inserted index entry is ignored. -/
theorem C13_insert_dim (v : View) (d n : Nat) (hwf : v.WF) (hd : d ≤ v.dims.length) :
    ∃ w, v.insertDim d n = .ok w ∧ w.dims = v.dims.take d ++ n :: v.dims.drop d ∧
      Relabels w v (fun ix => ix.eraseIdx d) := by
  obtain ⟨off, dims, strides⟩ := v
  simp only [WF] at hwf hd ⊢
  obtain ⟨A, B, rfl, rfl⟩ := split_le dims d hd
  obtain ⟨S, T, rfl, hS⟩ := split_le strides A.length (by omega)
  have hT : T.length = B.length := by simp at hwf; omega
  refine ⟨⟨off, A ++ n :: B, S ++ 0 :: T⟩, ?_, by simp, insert_axis off A B S T n 0 hS hT (Or.inr rfl)⟩
  simp only [insertDim, gvInsert_split, Res.ok_bind]
  rw [← hS, gvInsert_split]; rfl

/-- `unsqueeze(d)` for `d ≥ 1`: an axis of extent one is added. -/
theorem C13_unsqueeze_partial (v : View) (d : Nat) (hwf : v.WF) (h0 : 0 < d) (hd : d ≤ v.dims.length) :
    ∃ w, v.unsqueeze d = .ok w ∧ w.dims = v.dims.take d ++ 1 :: v.dims.drop d ∧
      Relabels w v (fun ix => ix.eraseIdx d) := by
  obtain ⟨off, dims, strides⟩ := v
  simp only [WF] at hwf hd ⊢
  have hms : ∃ m, memsize strides dims = .ok m := by
    unfold memsize
    simp only [hwf, decide_true, Res.assrt_true, Res.ok_bind]
    split
    · exact ⟨_, rfl⟩
    · split <;> exact ⟨_, rfl⟩
  obtain ⟨m, hm⟩ := hms
  have hlt : d - 1 < strides.length := by omega
  have hg : Res.get strides (d - 1) = .ok strides[d - 1] := by
    simp [Res.get, List.getElem?_eq_getElem hlt]
  generalize strides[d - 1] = s at hg
  obtain ⟨A, B, rfl, rfl⟩ := split_le dims d hd
  obtain ⟨S, T, rfl, hS⟩ := split_le strides A.length (by omega)
  have hT : T.length = B.length := by simp at hwf; omega
  refine ⟨⟨off, A ++ 1 :: B, S ++ s :: T⟩, ?_, by simp, insert_axis off A B S T 1 s hS hT (Or.inl rfl)⟩
  have hne : A.length ≠ 0 := by omega
  simp only [unsqueeze, hm, hne, if_false, hg, gvInsert_split, Res.ok_bind]
  rw [← hS, gvInsert_split]; rfl

/-- `unsqueeze(0)` is undefined for every view: both branches of the selection are evaluated and one
of them reads the stride at position -1. -/
theorem C13_unsqueeze_zero_fails (v : View) (hwf : v.WF) : v.unsqueeze 0 = .ub := by
  have hwf' : v.strides.length = v.dims.length := hwf
  unfold unsqueeze memsize
  simp only [hwf', decide_true, Res.assrt_true, Res.ok_bind]
  split
  · rfl
  · split <;> rfl

/-- `cinflate(d,n)` broadcasts an axis of extent one. -/
theorem C13_cinflate (v : View) (d n : Nat) (hwf : v.WF) (hd : d < v.dims.length) :
    (v.dims[d] = n → v.cinflate d n = .ok v) ∧
    (v.dims[d] = 1 → n ≠ 1 → ∃ w, v.cinflate d n = .ok w ∧ w.dims = v.dims.set d n ∧
      Relabels w v (fun ix => ix.set d 0)) ∧
    (v.dims[d] ≠ 1 → v.dims[d] ≠ n → v.cinflate d n = .throw) := by
  have hg : Res.get v.dims d = .ok v.dims[d] := by simp [Res.get, List.getElem?_eq_getElem hd]
  refine ⟨?_, ?_, ?_⟩
  · intro h; simp [cinflate, hg, h]
  · intro h hn
    obtain ⟨off, dims, strides⟩ := v
    simp only [WF] at hwf hd h ⊢
    obtain ⟨A, m, B, rfl, rfl, hm⟩ := split_at dims d hd
    obtain ⟨S, s, T, rfl, hS, -⟩ := split_at strides A.length (by omega)
    have hT : T.length = B.length := by simp at hwf; omega
    rw [hm] at h
    subst h
    have hset : ∀ (l k : List Nat) (x y : Nat), (l ++ x :: k).set l.length y = l ++ y :: k := by
      intro l k x y; simp
    refine ⟨⟨off, A ++ n :: B, S ++ 0 :: T⟩, ?_, (hset ..).symm, by simp [WF, hS, hT], ?_⟩
    · have : ¬ (1 = n) := fun h => hn h.symm
      simp only [cinflate, get_split, this, gvSet_split, Res.ok_bind]
      rw [← hS, gvSet_split]; simp
    · intro ix hix
      obtain ⟨a, i, b, rfl, ha, hA, hi, hB⟩ := inRange_split hix
      have hs : (a ++ i :: b).set A.length 0 = a ++ 0 :: b := by rw [← ha, hset]
      simp only [hs]
      refine ⟨(inRange_append ha).2 ⟨hA, inRange_cons.2 ⟨by omega, hB⟩⟩, ?_⟩
      simp [cell, dot_append S _ a _ (show S.length = a.length by omega)]
  · intro h1 h2; simp [cinflate, hg, h1, h2]

example : (⟨7, [2, 3, 4], [12, 4, 1]⟩ : View).slice 1 2 = .ok ⟨15, [2, 4], [12, 1]⟩ := by decide
example : (⟨7, [2, 3, 4], [12, 4, 1]⟩ : View).slices 1 1 2 = .ok ⟨11, [2, 2, 4], [12, 4, 1]⟩ := by decide
example : (⟨7, [2, 3, 4], [12, 4, 1]⟩ : View).sliceIx [1, 2] = .ok ⟨27, [4], [1]⟩ := by decide
example : (⟨0, [4, 5], [5, 1]⟩ : View).block [2, 3] [2, 2] = .ok ⟨12, [2, 3], [5, 1]⟩ := by decide
example : (⟨0, [4, 5], [5, 1]⟩ : View).block [2, 3] [3, 2] = .throw := by decide
example : (⟨0, [4, 4], [4, 1]⟩ : View).diag = .ok ⟨0, [4], [5]⟩ := by decide
example : (⟨0, [4, 1, 3], [3, 3, 1]⟩ : View).squeeze 1 = .ok ⟨0, [4, 3], [3, 1]⟩ := by decide
example : (⟨0, [4, 3], [3, 1]⟩ : View).unsqueeze 1 = .ok ⟨0, [4, 1, 3], [3, 3, 1]⟩ := by decide
example : (⟨0, [4, 3], [3, 1]⟩ : View).insertDim 2 5 = .ok ⟨0, [4, 3, 5], [3, 1, 0]⟩ := by decide
example : (⟨0, [4, 1], [1, 1]⟩ : View).cinflate 1 5 = .ok ⟨0, [4, 5], [1, 0]⟩ := by decide
example : (⟨6, [2, 3], [3, 1]⟩ : View).row 1 = .ok ⟨9, [3], [1]⟩ ∧
    (⟨6, [2, 3], [3, 1]⟩ : View).row 2 = .throw := by decide

end Cnine
