import Verif.Props.HighViews

/-!
# Views of any rank, accessors

C350 slices of `RtensorView` and `CtensorView` · C351 fused axes of `RtensorView` · C352 `matricize`, `flatten`, `fuse_all_but_last_two` ·
C353 `CtensorView::set` with four indices · C354 conversions by strides · C355 `TensorAccessor` · C356 `FixedTensorAccessor` ·
C357 `batched_cmvprod` · C358 `as_real` · C359 `fuse0X` · C360 six strides · C361 which tensors `TensorAccessor` takes, and zeros.
-/

namespace Cnine

open HV

variable {α : Type}

/-! ### C350 slices -/

theorem res_get {l : List Nat} {k : Nat} (h : k < l.length) : Res.get l k = .ok (l.getD k 0) := by
  rw [GT.get_ok (List.getElem?_eq_getElem h), List.getD_eq_getElem _ _ h]

theorem gslice_eq (v : HV) (hl : v.ns.length = v.ss.length) (k i : Nat) (hk : k < v.ns.length) : ∃ ss, v.gslice k i =
    .ok ⟨v.arr + i * v.ns.getD k 0, v.ns.eraseIdx k, ss⟩ ∧ ∀ ix, ix.length + 1 = v.ns.length → dot ss ix = dot (v.ss.eraseIdx k) ix := by
  have e : v.gslice k i = .ok ⟨v.arr + i * v.ns.getD k 0, v.ns.eraseIdx k, if v.ss.length = 1 then [1] else v.ss.eraseIdx k⟩ := by
    rw [HV.gslice, res_get hk, Res.ok_bind, gvRemove, decide_eq_true hk, Res.assrt_true, Res.ok_bind, HV.strideRemove,
      decide_eq_true (show k < v.ss.length by omega), Res.assrt_true, List.eraseIdx_eq_take_drop_succ, List.eraseIdx_eq_take_drop_succ]
    rfl
  refine ⟨_, e, fun ix hi => ?_⟩
  split
  · have : ix = [] := List.length_eq_zero_iff.1 (by omega)
    simp [this]
  · rfl

/-- `slice0(i)` to `slice3(i)` of `RtensorView`.  Missing: `i > 0` along an axis whose stride is not its size. -/
theorem C350_slice_partial (v : HV) (hl : v.ns.length = v.ss.length) (k i : Nat) (hk : k < v.ns.length) (h : i = 0 ∨ v.ss.getD k 0 = v.ns.getD k 0) :
    ∃ w, v.gslice k i = .ok w ∧ w.ns = v.ns.take k ++ v.ns.drop (k + 1) ∧ ∀ ix, ix.length + 1 = v.ns.length → w.at' ix = v.at' (ix.insertIdx k i) := by
  obtain ⟨ss, e, hs⟩ := gslice_eq v hl k i hk
  refine ⟨_, e, List.eraseIdx_eq_take_drop_succ _ _, fun ix hi => ?_⟩
  rw [at', at', dot_insert i k v.ss ix (by omega) (by omega), hs ix hi]
  have : i * v.ns.getD k 0 = i * v.ss.getD k 0 := by
    rcases h with rfl | h
    · simp
    · rw [h]
  show v.arr + i * v.ns.getD k 0 + _ = _
  omega

/-- In all other slices every entry is misplaced. -/
theorem C350_slice_fails (v : HV) (hl : v.ns.length = v.ss.length) (k i : Nat) (hk : k < v.ns.length) (hi : 0 < i) (h : v.ss.getD k 0 ≠ v.ns.getD k 0) :
    ∃ w, v.gslice k i = .ok w ∧ ∀ ix, ix.length + 1 = v.ns.length → w.at' ix ≠ v.at' (ix.insertIdx k i) := by
  obtain ⟨ss, e, hs⟩ := gslice_eq v hl k i hk
  refine ⟨_, e, fun ix hi' => ?_⟩
  rw [at', at', dot_insert i k v.ss ix (by omega) (by omega), hs ix hi']
  show v.arr + i * v.ns.getD k 0 + _ ≠ _
  intro he
  have : i * v.ns.getD k 0 = i * v.ss.getD k 0 := by omega
  exact h (Nat.eq_of_mul_eq_mul_left hi this).symm

theorem cgslice_eq (v : CHV) (k i : Nat) (w : HV) (h : HV.gslice ⟨v.arr, v.ns, v.ss⟩ k i = .ok w) : v.gslice k i =
    .ok ⟨w.arr, v.arrc + i * v.ns.getD k 0, w.ns, w.ss⟩ := by
  unfold HV.gslice at h
  unfold CHV.gslice
  simp only at h
  by_cases hk : k < v.ns.length
  · rw [res_get hk, Res.ok_bind] at h ⊢
    cases h1 : gvRemove v.ns k with
    | throw => rw [h1] at h; cases h
    | ub => rw [h1] at h; cases h
    | ok a =>
      cases h2 : HV.strideRemove v.ss k with
      | throw => rw [h1, h2] at h; cases h
      | ub => rw [h1, h2] at h; cases h
      | ok b =>
        rw [h1, h2] at h
        cases h
        rfl
  · rw [Res.get, List.getElem?_eq_none (by omega)] at h
    cases h

/-- `slice0(i)` to `slice3(i)` of `CtensorView`.  Missing: `i > 0` along an axis whose stride is not its size. -/
theorem C350_cslice_partial (v : CHV) (hl : v.ns.length = v.ss.length) (k i : Nat) (hk : k < v.ns.length) (h : i = 0 ∨ v.ss.getD k 0 = v.ns.getD k 0) :
    ∃ w, v.gslice k i = .ok w ∧ w.ns = v.ns.take k ++ v.ns.drop (k + 1) ∧ ∀ ix, ix.length + 1 = v.ns.length →
      w.arr + dot w.ss ix = v.arr + dot v.ss (ix.insertIdx k i) ∧ w.arrc + dot w.ss ix = v.arrc + dot v.ss (ix.insertIdx k i) := by
  obtain ⟨ss, e, hs⟩ := gslice_eq ⟨v.arr, v.ns, v.ss⟩ hl k i hk
  refine ⟨_, cgslice_eq v k i _ e, List.eraseIdx_eq_take_drop_succ _ _, fun ix hi => ?_⟩
  have hs := hs ix hi
  have : i * v.ns.getD k 0 = i * v.ss.getD k 0 := by
    rcases h with rfl | h
    · simp
    · rw [h]
  rw [dot_insert i k v.ss ix (by omega) (by omega)]
  show v.arr + i * v.ns.getD k 0 + dot ss ix = _ ∧ v.arrc + i * v.ns.getD k 0 + dot ss ix = _
  simp only at hs
  omega

theorem C350_cslice_fails (v : CHV) (hl : v.ns.length = v.ss.length) (k i : Nat) (hk : k < v.ns.length) (hi : 0 < i) (h : v.ss.getD k 0 ≠ v.ns.getD k 0) :
    ∃ w, v.gslice k i = .ok w ∧ ∀ ix, ix.length + 1 = v.ns.length →
      w.arr + dot w.ss ix ≠ v.arr + dot v.ss (ix.insertIdx k i) ∧ w.arrc + dot w.ss ix ≠ v.arrc + dot v.ss (ix.insertIdx k i) := by
  obtain ⟨ss, e, hs⟩ := gslice_eq ⟨v.arr, v.ns, v.ss⟩ hl k i hk
  refine ⟨_, cgslice_eq v k i _ e, fun ix hi' => ?_⟩
  have hs := hs ix hi'
  have : i * v.ns.getD k 0 ≠ i * v.ss.getD k 0 := fun he => h (Nat.eq_of_mul_eq_mul_left hi he).symm
  rw [dot_insert i k v.ss ix (by omega) (by omega)]
  show v.arr + i * v.ns.getD k 0 + dot ss ix ≠ _ ∧ v.arrc + i * v.ns.getD k 0 + dot ss ix ≠ _
  simp only at hs
  omega

/-- `slice01`, `slice012` of `RtensorView`: the entries are as far from where they should be as the sizes are from the strides.
Missing: that they are right, which needs the two sums below to be equal. -/
theorem C350_lead_partial (v : HV) (hl : v.ns.length = v.ss.length) (is : List Nat) (hi : is.length ≤ v.ns.length) :
    ∃ w, v.gsliceLead is = .ok w ∧ w.ns = v.ns.drop is.length ∧ ∀ ix,
      w.at' ix + dot (v.ss.take is.length) is = v.at' (is ++ ix) + dot (v.ns.take is.length) is := by
  have hh : (decide (is.length ≤ v.ns.length ∧ is.length ≤ v.ss.length)) = true := decide_eq_true (by omega)
  have hd : ∀ l : List Nat, is.length ≤ l.length → dot l is = dot (l.take is.length) is := by
    intro l h
    have := dot_append (l.take is.length) (l.drop is.length) is [] (by simp; omega)
    rw [List.take_append_drop, List.append_nil] at this
    simpa using this
  refine ⟨_, by rw [HV.gsliceLead, hh]; rfl, rfl, fun ix => ?_⟩
  rw [at', at', hoffs_eq, hd v.ns hi]
  conv_rhs => rw [← List.take_append_drop is.length v.ss]
  rw [dot_append _ _ _ _ (by simp; omega)]
  show v.arr + _ + _ + _ = _
  simp only
  omega

theorem C350_lead_fails : ∃ (v w : HV), v.Compact ∧ v.ns = [2, 2, 3] ∧ v.gsliceLead [1, 1] = .ok w ∧ w.at' [0] = 4 ∧ v.at' [1, 1, 0] = 9 :=
  ⟨⟨0, [2, 2, 3], [6, 3, 1]⟩, _, rfl, rfl, rfl, rfl, rfl⟩

example : (HV.mk 0 [2, 3] [3, 1]).gslice 0 1 = .ok ⟨2, [3], [1]⟩ ∧ (HV.mk 0 [3, 3] [3, 1]).gslice 0 1 = .ok ⟨3, [3], [1]⟩ := ⟨rfl, rfl⟩

/-! ### C351 fused axes -/

theorem hmerge_pair (k : Nat) (ns : List Nat) (h : k + 1 < ns.length) : (ns.eraseIdx k).set k (ns.getD k 0 * ns.getD (k + 1) 0) = hmerge ns k ∧
    (ns.eraseIdx (k + 1)).set k (ns.getD k 0 * ns.getD (k + 1) 0) = hmerge ns k := by
  induction k generalizing ns with
  | zero =>
    match ns, h with
    | a :: b :: l, _ => simp [hmerge]
  | succ k ih =>
    match ns, h with
    | a :: l, h => simpa [hmerge] using ih l (by simpa using h)

theorem strideRemove_eq (l : List Nat) (k : Nat) (h : k + 1 < l.length) : HV.strideRemove l k = .ok (l.eraseIdx k) := by
  rw [HV.strideRemove, decide_eq_true (show k < l.length by omega), Res.assrt_true, Res.ok_bind, if_neg (by omega)]

theorem gfuse_core (v : HV) (hl : v.ns.length = v.ss.length) (i : Int) (k : Nat) (hk : k + 1 < v.ns.length) (hik : i = k ∨ i = k - v.ns.length ∧ i < 0) :
    v.gfuse i = .ok (v.fuse k) := by
  have e : (if i < 0 then (v.ns.length : Int) + i else i) = (k : Int) := by
    rcases hik with rfl | ⟨rfl, h⟩
    · rw [if_neg (by omega)]
    · rw [if_pos h]; omega
  unfold HV.gfuse
  simp only [e]
  rw [decide_eq_true (Int.natCast_nonneg k)]
  simp only [Int.toNat_natCast]
  rw [gvRemove, decide_eq_true (show k < v.ns.length by omega), Res.assrt_true, res_get (show k < v.ns.length by omega), res_get hk, strideRemove_eq _ _ (by omega)]
  have h1 : k < (v.ns.take k ++ v.ns.drop (k + 1)).length := by simp; omega
  show (gvSet (v.ns.take k ++ v.ns.drop (k + 1)) k (v.ns.getD k 0 * v.ns.getD (k + 1) 0) >>= fun ns => Res.ok (HV.mk v.arr ns (v.ss.eraseIdx k))) = _
  rw [gvSet, if_pos h1, Res.ok_bind, ← List.eraseIdx_eq_take_drop_succ, (hmerge_pair k v.ns hk).1]
  rfl

theorem gfusePair_core (v : HV) (hl : v.ns.length = v.ss.length) (k : Nat) (hk : k + 1 < v.ns.length) : v.gfusePair k (k + 1) = .ok (v.fuse k) := by
  unfold HV.gfusePair
  have h1 : k < (v.ns.eraseIdx (k + 1)).length := by rw [List.length_eraseIdx_of_lt hk]; omega
  have h2 : (v.ns.eraseIdx (k + 1)).getD k 0 = v.ns.getD k 0 := by
    simp only [List.getD_eq_getElem?_getD, List.getElem?_eraseIdx]
    rw [if_pos (by omega)]
  rw [gvRemove, decide_eq_true hk, Res.assrt_true, Res.ok_bind, Res.ok_bind, ← List.eraseIdx_eq_take_drop_succ, res_get h1, Res.ok_bind, res_get hk, Res.ok_bind,
    gvSet, if_pos h1, Res.ok_bind, strideRemove_eq _ _ (by omega), h2, (hmerge_pair k v.ns hk).2]
  rfl

/-- `fuse(k)`, `fuse(-j)` (the axes `n-j` and `n-j+1` of `n`), `fuse01()`, `fuse12()` of `RtensorView`.
Missing: views in which a step along the first axis is not as long as the second axis. -/
theorem C351_fuse_partial (v : HV) (hl : v.ns.length = v.ss.length) (A B : List Nat) (h : A.length + 1 < v.ns.length) (hv : v.Linked A.length) (a b : Nat) :
    ∃ w, v.gfuse A.length = .ok w ∧ v.gfuse (A.length - v.ns.length) = .ok w ∧ (A.length = 0 → v.gfuse01 = .ok w) ∧ (A.length = 1 → v.gfuse12 = .ok w) ∧
    (∃ N M, v.ns = N ++ v.ns.getD A.length 0 :: v.ns.getD (A.length + 1) 0 :: M ∧ N.length = A.length ∧
      w.ns = N ++ v.ns.getD A.length 0 * v.ns.getD (A.length + 1) 0 :: M) ∧
    w.at' (A ++ (a * v.ns.getD (A.length + 1) 0 + b) :: B) = v.at' (A ++ a :: b :: B) := by
  refine ⟨v.fuse A.length, gfuse_core v hl _ _ h (.inl rfl), gfuse_core v hl _ _ h (.inr ⟨rfl, by omega⟩), ?_, ?_, C342_fuse_partial v hl A B h hv a b⟩
  · intro h0
    rw [h0] at h ⊢
    exact gfusePair_core v hl 0 h
  · intro h1
    rw [h1] at h ⊢
    exact gfusePair_core v hl 1 h

/-- `fuse23()`: the size of the fused axis is the product of the second and third sizes, not of the third and fourth. -/
theorem C351_fuse23_fails (a b c d s t u w arr : Nat) (hc : 0 < c) (hbd : b ≠ d) :
    ∃ x, (HV.mk arr [a, b, c, d] [s, t, u, w]).gfuse23 = .ok x ∧ x.ns = [a, b, c * b] ∧ x.ns ≠ [a, b, c * d] := by
  refine ⟨_, rfl, rfl, ?_⟩
  show [a, b, c * b] ≠ [a, b, c * d]
  intro h
  simp only [List.cons.injEq, true_and, and_true] at h
  exact hbd (Nat.eq_of_mul_eq_mul_left hc h)

example : (HV.mk 0 [2, 2, 3] [6, 3, 1]).gfuse (-2) = .ok ⟨0, [2, 6], [6, 1]⟩ ∧ (HV.mk 0 [1, 2, 2, 3] [12, 6, 3, 1]).gfuse23 = .ok ⟨0, [1, 2, 4], [12, 6, 1]⟩ := ⟨rfl, rfl⟩

/-! ### C352 `matricize`, `flatten`, `fuse_all_but_last_two` -/

theorem position_glue : ∀ (N M A B : List Nat), A.length = N.length → position (N ++ M) (A ++ B) = position N A * M.prod + position M B
  | [], M, [], B, _ => by simp [position]
  | n :: N, M, a :: A, B, h => by
    simp only [List.cons_append, position]
    rw [position_glue N M A B (by simpa using h), List.prod_append]
    ring

/-- When every step is as long as the next axis, offsets are positions times the last stride. -/
theorem chain : ∀ (ns ss : List Nat), ns.length = ss.length → (∀ j, j + 1 < ns.length → ss.getD j 0 = ns.getD (j + 1) 0 * ss.getD (j + 1) 0) →
    ∀ n, ns.length = n + 1 → ss.getD 0 0 = ns.tail.prod * ss.getD n 0 ∧ ∀ A, A.length = ns.length → dot ss A = position ns A * ss.getD n 0
  | [], _, _, _, _, h => by simp at h
  | [a], [s], _, _, n, h => by
    simp at h
    subst h
    refine ⟨by simp, fun A hA => ?_⟩
    match A, hA with
    | [i], _ => simp [position, Nat.mul_comm]
  | a :: b :: l, s :: t :: r, hl, hL, n, h => by
    obtain ⟨n, rfl⟩ : ∃ k, n = k + 1 := ⟨n - 1, by simp at h; omega⟩
    obtain ⟨g1, g2⟩ := chain (b :: l) (t :: r) (by simpa using hl) (fun j hj => by
      have := hL (j + 1) (by simpa using hj)
      simpa using this) n (by simpa using h)
    have h0 := hL 0 (by simp)
    simp only [List.getD_cons_zero, List.getD_cons_succ, List.tail_cons, Nat.zero_add] at h0 g1 g2 ⊢
    constructor
    · rw [h0, List.prod_cons, Nat.mul_assoc, ← g1]
    · intro A hA
      match A, hA with
      | i :: A, hA =>
        have e : s = (b :: l).prod * (t :: r).getD n 0 := by rw [h0, List.prod_cons, Nat.mul_assoc, ← g1]
        rw [dot_cons, g2 A (by simpa using hA), position, e]
        ring

theorem compact_chain {v : HV} (h : v.Compact) {n : Nat} (hn : v.ns.length = n + 1) {A : List Nat} (hA : A.length = v.ns.length) : v.at' A = v.arr + position v.ns A := by
  rw [at', compact_iff.1 h, dot_rmStrides _ _ hA]

/-- `matricize(n)`: the first `n` axes and the others, each in row-major order.  Missing: views with gaps. -/
theorem C352_matricize_partial (v : HV) (hv : v.Compact) (A B : List Nat) (hA : 0 < A.length) (h : A.length + B.length = v.ns.length) :
    ∃ w, v.matricize A.length = .ok w ∧ w.n0 = (v.ns.take A.length).prod ∧ w.n1 = (v.ns.drop A.length).prod ∧
      w.cell (position (v.ns.take A.length) A) (position (v.ns.drop A.length) B) = v.at' (A ++ B) := by
  have hl := hv.len
  have hs : v.ss.getD (A.length - 1) 0 = (v.ns.drop A.length).prod := by
    have := GT.strides_get (D := v.ns) (i := A.length - 1) (by omega)
    rw [← compact_iff.1 hv] at this
    rw [List.getD_eq_getElem?_getD, this, Nat.sub_add_cancel hA]
    rfl
  refine ⟨⟨v.arr, (v.ns.take A.length).prod, (v.ns.drop A.length).prod, v.ss.getD (A.length - 1) 0, 1⟩, ?_, rfl, rfl, ?_⟩
  · rw [HV.matricize, decide_eq_true (show 1 ≤ A.length ∧ A.length ≤ v.ns.length by omega), res_get (by omega)]
    rfl
  · rw [compact_chain hv (n := v.ns.length - 1) (by omega) (by simp; omega)]
    conv_rhs => rw [← List.take_append_drop A.length v.ns]
    rw [position_glue _ _ _ _ (by simp; omega)]
    simp only [RV2.cell, hs]
    ring

/-- A transposed matrix: the entry 0,1 is looked for in the next cell. -/
theorem C352_matricize_fails : ∃ (v : HV) (w : RV2), v.ns = [2, 2] ∧ v.matricize 1 = .ok w ∧ w.cell 0 1 = 1 ∧ v.at' [0, 1] = 2 ∧ w.cell 1 0 = 1 :=
  ⟨⟨0, [2, 2], [1, 2]⟩, _, rfl, rfl, rfl, rfl, rfl⟩

/-- `flatten()`: all entries in row-major order.  Missing: views in which some step is not as long as the next axis. -/
theorem C352_flatten_partial (v : HV) (hl : v.ns.length = v.ss.length) (hn : 0 < v.ns.length) (hv : ∀ j, j + 1 < v.ns.length → v.Linked j) :
    ∃ w, v.flatten = .ok w ∧ w.n0 = v.ns.prod ∧ ∀ ix, ix.length = v.ns.length → w.cell (position v.ns ix) = v.at' ix := by
  refine ⟨⟨v.arr, v.ns.prod, v.ss.getD (v.ss.length - 1) 0⟩, by rw [HV.flatten, res_get (by omega)]; rfl, rfl, fun ix hi => ?_⟩
  rw [at', (chain v.ns v.ss hl hv (v.ss.length - 1) (by omega)).2 ix hi]
  simp only [RV1.cell]
  ring

theorem C352_flatten_fails : ∃ (v : HV) (w : RV1), v.ns = [2, 2] ∧ v.flatten = .ok w ∧ w.cell (position [2, 2] [0, 1]) = 1 ∧ v.at' [0, 1] = 1 ∧
    w.cell (position [2, 2] [1, 0]) = 2 ∧ v.at' [1, 0] = 4 :=
  ⟨⟨0, [2, 2], [4, 1]⟩, _, rfl, rfl, rfl, rfl, rfl, rfl⟩

/-- `fuse_all_but_last_two()`.  Missing: views in which some step along the first axes is not as long as the next axis. -/
theorem C352_leading_partial (v : HV) (hl : v.ns.length = v.ss.length) (A : List Nat) (b c : Nat) (hA : 0 < A.length) (hn : A.length + 2 = v.ns.length)
    (hv : ∀ j, j + 1 < A.length → v.Linked j) :
    ∃ w, v.fuseLeading = .ok w ∧ w.n0 = (v.ns.take A.length).prod ∧ w.n1 = v.ns.getD A.length 0 ∧ w.n2 = v.ns.getD (A.length + 1) 0 ∧
      w.cell (position (v.ns.take A.length) A) b c = v.at' (A ++ [b, c]) := by
  have hA2 : v.ns.length - 2 = A.length := by omega
  obtain ⟨S, T, e, hS⟩ := split_pair v.ss A.length (by omega)
  obtain ⟨N, M, e', hN⟩ := split_pair v.ns A.length (by omega)
  have hT : T = [] := by
    have := congrArg List.length e
    simp at this
    exact List.length_eq_zero_iff.1 (by omega)
  have hM : M = [] := by
    have := congrArg List.length e'
    simp at this
    exact List.length_eq_zero_iff.1 (by omega)
  subst hT hM
  have hNd : v.ns.drop A.length = [v.ns.getD A.length 0, v.ns.getD (A.length + 1) 0] := by
    conv_lhs => rw [e', ← hN]
    simp [hN]
  have hSd : v.ss.drop (A.length - 1) = [v.ss.getD (A.length - 1) 0, v.ss.getD A.length 0, v.ss.getD (A.length + 1) 0] := by
    have h1 : v.ss.drop A.length = [v.ss.getD A.length 0, v.ss.getD (A.length + 1) 0] := by
      conv_lhs => rw [e, ← hS]
      simp [hS]
    rw [List.drop_eq_getElem_cons (by omega), Nat.sub_add_cancel hA, h1, ← List.getD_eq_getElem _ 0]
  refine ⟨_, by rw [HV.fuseLeading, decide_eq_true (show 3 ≤ v.ns.length ∧ v.ns.length = v.ss.length by omega)]; rfl, ?_, ?_, ?_, ?_⟩
  · simp [HV.v3, hA2]
  · simp only [HV.v3, hA2, hNd]; rfl
  · simp only [HV.v3, hA2, hNd]; rfl
  · have hch := (chain (v.ns.take A.length) (v.ss.take A.length) (by simp; omega) (fun j hj => by
      have hj' : j + 1 < A.length := by simp at hj; omega
      have := hv j hj'
      simp only [Linked, List.getD_eq_getElem?_getD] at this ⊢
      rw [List.getElem?_take_of_lt (by omega), List.getElem?_take_of_lt hj', List.getElem?_take_of_lt hj']
      exact this) (A.length - 1) (by simp; omega)).2 A (by simp; omega)
    rw [at']
    conv_rhs => rw [← List.take_append_drop A.length v.ss]
    rw [dot_append _ _ _ _ (by simp; omega), hch]
    have h1 : v.ss.drop A.length = [v.ss.getD A.length 0, v.ss.getD (A.length + 1) 0] := by
      conv_lhs => rw [e, ← hS]
      simp [hS]
    rw [h1]
    have h2 : (v.ss.take A.length).getD (A.length - 1) 0 = v.ss.getD (A.length - 1) 0 := by
      simp only [List.getD_eq_getElem?_getD]
      rw [List.getElem?_take_of_lt (by omega)]
    simp only [HV.v3, RV3.cell, hA2, hSd, h2, dot_cons, dot_nil_right, List.getD_cons_zero, List.getD_cons_succ]
    ring

example : (HV.mk 0 [2, 2, 3] [6, 3, 1]).matricize 2 = .ok ⟨0, 4, 3, 3, 1⟩ ∧ (HV.mk 0 [2, 3] [12, 4]).flatten = .ok ⟨0, 6, 4⟩ ∧
    (HV.mk 0 [2, 2, 2, 3] [12, 6, 3, 1]).fuseLeading = .ok ⟨0, 4, 2, 3, 6, 3, 1⟩ := ⟨rfl, rfl, rfl⟩

/-! ### C353 `CtensorView::set` with four indices -/

/-- Missing: `i3 > 0`. -/
theorem C353_set_partial (v : CHV) (i0 i1 i2 : Nat) (x : Cx α) (m : Buf α) : v.setFour i0 i1 i2 0 x m = v.set [i0, i1, i2, 0] x m := by
  have : hoffs v.ss [i0, i1, i2] = hoffs v.ss [i0, i1, i2, 0] := by
    obtain ⟨_, _, _, ss⟩ := v
    match ss with
    | [] => rfl
    | [a] => rfl
    | [a, b] => rfl
    | [a, b, c] => rfl
    | a :: b :: c :: d :: l => simp [hoffs]
  simp only [CHV.setFour, CHV.set, this]

/-- The last index is ignored: the entry with last index 0 is written, for every view. -/
theorem C353_ignored_fails (v : CHV) (i0 i1 i2 i3 : Nat) (x : Cx α) (m : Buf α) : v.setFour i0 i1 i2 i3 x m = v.set [i0, i1, i2, 0] x m :=
  C353_set_partial v i0 i1 i2 x m

theorem C353_set_fails : ∃ (v : CHV) (m m' : Buf Int), v.ns = [1, 1, 1, 2] ∧ v.ss = [4, 4, 4, 2] ∧ v.setFour 0 0 0 1 ⟨7, 8⟩ m = .ok m' ∧
    m' 0 = some 7 ∧ m' 2 = m 2 ∧ m 2 = some 3 :=
  ⟨⟨0, 1, [1, 1, 1, 2], [4, 4, 4, 2]⟩, Buf.ofList [1, 2, 3, 4], _, rfl, rfl, rfl, rfl, rfl, rfl⟩

example : ∃ m', (CHV.mk 0 1 [1, 1, 1, 2] [4, 4, 4, 2]).setFour 0 0 0 0 ⟨7, 8⟩ (Buf.ofList [1, 2, 3, 4]) = .ok m' ∧ m' 1 = some (8 : Int) := ⟨_, rfl, rfl⟩

/-! ### C354 conversions by strides -/

theorem digits_ok (p : Nat) (hp : 0 < p) : ∀ (ds ix : List Nat), InRange ix ds → ∀ a, a % (p * ds.prod) = p * position ds ix →
    CHV.digits a (p * ds.prod) ((rmStrides ds).map (p * ·)) = .ok ix
  | [], [], _, _, _ => rfl
  | d :: ds, i :: ix, h, a, ha => by
    rw [inRange_cons] at h
    have hpos := position_lt h.2
    have hP : 0 < p * ds.prod := Nat.mul_pos hp (by omega)
    have hd : 0 < d := by omega
    have e0 : p * (d :: ds).prod = d * (p * ds.prod) := by rw [List.prod_cons]; ring
    have e1 : p * position (d :: ds) (i :: ix) = i * (p * ds.prod) + p * position ds ix := by rw [position]; ring
    have hlt : p * position ds ix < p * ds.prod := Nat.mul_lt_mul_of_pos_left hpos hp
    rw [e0, e1] at ha
    have h1 : a % (d * (p * ds.prod)) / (p * ds.prod) = i := by
      rw [ha, Nat.mul_comm, Nat.mul_add_div hP, Nat.div_eq_of_lt hlt, Nat.add_zero]
    have h2 : a % (p * ds.prod) = p * position ds ix := by
      have : a % (p * ds.prod) = (a % (d * (p * ds.prod))) % (p * ds.prod) := (Nat.mod_mod_of_dvd a (Dvd.intro_left d rfl)).symm
      rw [this, ha, Nat.mul_comm, Nat.mul_add_mod, Nat.mod_eq_of_lt hlt]
    rw [rmStrides_cons, List.map_cons, CHV.digits, e0,
      decide_eq_true (show d * (p * ds.prod) ≠ 0 ∧ p * ds.prod ≠ 0 from ⟨(Nat.mul_pos hd hP).ne', hP.ne'⟩), h1,
      digits_ok p hp ds ix h.2 a h2]
    rfl

theorem ofStrides_ok (p : Nat) (hp : 0 < p) (D ix : List Nat) (hD : D ≠ []) (h : InRange ix D) :
    CHV.ofStrides (p * position D ix) ((rmStrides D).map (p * ·)) = .ok ix := by
  match D, ix, h with
  | [], _, _ => exact absurd rfl hD
  | d :: ds, i :: ix, h =>
    rw [inRange_cons] at h
    have hpos := position_lt h.2
    have hP : 0 < p * ds.prod := Nat.mul_pos hp (by omega)
    have e1 : p * position (d :: ds) (i :: ix) = p * ds.prod * i + p * position ds ix := by rw [position]; ring
    have hlt : p * position ds ix < p * ds.prod := Nat.mul_lt_mul_of_pos_left hpos hp
    rw [rmStrides_cons, List.map_cons, CHV.ofStrides, e1, digits_ok p hp ds ix h.2 _ (by rw [Nat.mul_add_mod, Nat.mod_eq_of_lt hlt]),
      decide_eq_true (show p * ds.prod ≠ 0 from hP.ne'), Nat.mul_add_div hP, Nat.div_eq_of_lt hlt, Nat.add_zero]
    rfl

theorem gtensorBy_core (f : Nat) (hf : 0 < f) (v : CHV) (hn : v.ns ≠ []) (hs : v.ss = (rmStrides v.ns).map (f * ·)) (junk : Nat → Cx α) (m : Buf α)
    (X : List Nat → Cx α) (hX : v.Has m X) : ∃ R, v.gtensorBy f junk m = .ok R ∧ R.Is v.ns X := by
  unfold CHV.gtensorBy
  rw [GT.new_ok junk hn, Res.ok_bind]
  simp only
  rw [GT.fill_new v.ns _ (GT.alloc_length _ _) X _ (fun ix hi b _ o ho => by
    rw [hs, ofStrides_ok f hf v.ns ix hn hi, Res.ok_bind, C338_get v m X hX ix hi, Res.ok_bind, GT.wr_ok ho]), Res.ok_bind]
  exact ⟨_, rfl, GT.new_is hn X false⟩

/-- `gtensor()` of `CtensorView`, for a view without gaps, and of `CtensorD_view`, for a view with real and imaginary parts in turn.
Missing: all other views. -/
theorem C354_gtensor_partial (v : CHV) (hn : v.ns ≠ []) (junk : Nat → Cx α) (m : Buf α) (X : List Nat → Cx α) (hX : v.Has m X) :
    (v.ss = v.ns.tails.tail.map List.prod → ∃ R, v.gtensorBy 1 junk m = .ok R ∧ R.Is v.ns X) ∧
    (v.ss = (v.ns.tails.tail.map List.prod).map (2 * ·) → ∃ R, v.gtensorBy 2 junk m = .ok R ∧ R.Is v.ns X) := by
  refine ⟨fun h => gtensorBy_core 1 (by omega) v hn (by rw [h, compact_rm]; simp) junk m X hX,
    fun h => gtensorBy_core 2 (by omega) v hn (by rw [h, compact_rm]) junk m X hX⟩

/-- `CtensorView` with real and imaginary parts in turn (the layout of `complex<float>`): the first entry twice, the second not at all.
`CtensorD_view` with the parts in two arrays: outside. -/
theorem C354_gtensor_fails : (∃ R, (CHV.mk 0 1 [2] [2]).gtensorBy 1 (fun _ => (⟨0, 0⟩ : Cx Int)) (Buf.ofList [1, 2, 3, 4]) = .ok R ∧ R.arr = [⟨1, 2⟩, ⟨1, 2⟩]) ∧
    (CHV.mk 0 2 [2] [1]).gtensorBy 2 (fun _ => (⟨0, 0⟩ : Cx Int)) (Buf.ofList [1, 2, 3, 4]) = .ub := ⟨⟨_, rfl, rfl⟩, rfl⟩

example : ∃ R, (CHV.mk 0 1 [2, 2] [4, 2]).gtensorBy 2 (fun _ => (⟨0, 0⟩ : Cx Int)) (Buf.ofList [1, 2, 3, 4, 5, 6, 7, 8]) = .ok R ∧
    R.arr = [⟨1, 2⟩, ⟨3, 4⟩, ⟨5, 6⟩, ⟨7, 8⟩] := ⟨_, rfl, rfl⟩

/-! ### C355 `TensorAccessor` -/

theorem toInt32_small {n : Nat} (h : n < 2 ^ 31) : toInt32 n = n := by
  unfold toInt32
  have : n % 2 ^ 32 = n := Nat.mod_eq_of_lt (by omega)
  rw [this, if_pos h]

theorem int32_ok {n : Nat} (h : n < 2 ^ 31) : int32 (n : Int) = .ok (n : Int) := by
  unfold int32
  rw [if_pos ⟨by omega, by exact_mod_cast h⟩]

theorem sum_ok : ∀ (ss ix : List Nat) (t : Nat), t + dot ss ix < 2 ^ 31 → TAcc.sum t (ss.map toInt32) ix = .ok ((t + dot ss ix : Nat) : Int)
  | [], ix, t, _ => by simp [TAcc.sum]
  | s :: ss, [], t, _ => by simp [TAcc.sum]
  | s :: ss, i :: ix, t, h => by
    rw [dot_cons] at h
    have e : toInt32 s * (i : Int) = ((s * i : Nat) : Int) := by
      rcases Nat.eq_zero_or_pos i with rfl | hi
      · simp
      · have : s ≤ s * i := Nat.le_mul_of_pos_right s hi
        rw [toInt32_small (by omega)]
        push_cast
        rfl
    simp only [List.map_cons, TAcc.sum, e]
    rw [int32_ok (by omega), Res.ok_bind, ← Int.natCast_add, int32_ok (by omega), Res.ok_bind, sum_ok ss ix (t + s * i) (by omega), dot_cons, Nat.add_assoc]

/-- The accessor reaches the cell of the entry when the offset fits in 31 bits.  Missing: larger offsets. -/
theorem C355_cell_partial (v : View) (hl : v.dims.length = v.strides.length) (ix : List Nat) (h : dot v.strides ix < 2 ^ 31) :
    ∃ a, TAcc.new v.dims.length v = .ok a ∧ a.cell ix = .ok (v.off + dot v.strides ix) := by
  refine ⟨⟨v.off, v.strides.map toInt32⟩, ?_, ?_⟩
  · rw [TAcc.new, decide_eq_true rfl, Res.assrt_true, Res.ok_bind, firstK, if_pos (by omega), Res.ok_bind, hl, List.take_length]
  · have := sum_ok v.strides ix 0 (by omega)
    rw [TAcc.cell]
    simp only [Nat.zero_add] at this
    rw [show ((0 : Nat) : Int) = 0 from rfl] at this
    rw [this, Res.ok_bind, decide_eq_true (by omega)]
    show Res.ok (((v.off : Int) + ((dot v.strides ix : Nat) : Int)).toNat) = _
    congr 1

/-- Any number of axes other than that of the accessor is refused. -/
theorem C361_refused (k : Nat) (v : View) (h : v.dims.length ≠ k) : TAcc.new k v = .throw := by
  rw [TAcc.new, decide_eq_false h]
  rfl

/-- A stride of 2^32 is taken for 0; one of 2^31 for a negative number. -/
theorem C355_large_fails : (∃ a, TAcc.new 1 ⟨5, [2], [2 ^ 32]⟩ = .ok a ∧ a.cell [1] = .ok 5) ∧
    (∃ a, TAcc.new 1 ⟨5, [2], [2 ^ 31]⟩ = .ok a ∧ a.cell [1] = .ub) ∧
    (∃ a, TAcc.new 2 ⟨5, [3, 2], [2 ^ 30, 1]⟩ = .ok a ∧ a.cell [2, 0] = .ub) :=
  ⟨⟨_, rfl, rfl⟩, ⟨_, rfl, rfl⟩, ⟨_, rfl, rfl⟩⟩

/-- No axes, or one of size 1, for the accessor without indices. -/
theorem C361_scalar (v : View) : (v.dims = [] ∨ v.dims = [1] → ∃ a, TAcc.new0 v = .ok a ∧ a.cell [] = .ok v.off) ∧
    (¬ (v.dims = [] ∨ v.dims = [1]) → TAcc.new0 v = .throw) := by
  obtain ⟨off, dims, strides⟩ := v
  match dims with
  | [] => exact ⟨fun _ => ⟨_, rfl, by simp [TAcc.cell, TAcc.sum, Res.need]⟩, fun h => absurd (.inl rfl) h⟩
  | [n] =>
    by_cases hn : n = 1
    · subst hn
      exact ⟨fun _ => ⟨_, rfl, by simp [TAcc.cell, TAcc.sum, Res.need]⟩, fun h => absurd (.inr rfl) h⟩
    · refine ⟨fun h => ?_, fun _ => by simp [TAcc.new0, hn]⟩
      simp [hn] at h
  | a :: b :: l => exact ⟨fun h => by simp at h, fun _ => by simp [TAcc.new0]⟩

example : ∃ a, TAcc.new 3 ⟨100, [2, 3, 4], [1, 8, 2]⟩ = .ok a ∧ a.cell [1, 2, 3] = .ok 123 := ⟨_, rfl, rfl⟩

/-! ### C356 `FixedTensorAccessor` -/

/-- The accessor reaches the cell of the entry if its strides are those of the view.  Missing: that other views are refused. -/
theorem C356_cell_partial (v : View) (ss : List Nat) (hs : v.strides = ss) (ix : List Nat) :
    ∃ a, fixedNew v.dims.length v = .ok a ∧ fixedCell a ss ix = v.off + dot v.strides ix := by
  refine ⟨v.off, by rw [fixedNew, decide_eq_true rfl]; rfl, by rw [fixedCell, hoffs_eq, hs]⟩

/-- The strides of the view are not looked at: any view with the right number of axes is taken, and read with other strides. -/
theorem C356_strides_fails (v : View) (ss ix : List Nat) (h : dot ss ix ≠ dot v.strides ix) :
    ∃ a, fixedNew v.dims.length v = .ok a ∧ fixedCell a ss ix ≠ v.off + dot v.strides ix := by
  refine ⟨v.off, by rw [fixedNew, decide_eq_true rfl]; rfl, ?_⟩
  rw [fixedCell, hoffs_eq]
  omega

/-- A vector of any size is taken for a scalar. -/
theorem C356_scalar_fails : fixedNew0 ⟨3, [5], [1]⟩ = .ok 3 ∧ TAcc.new0 ⟨3, [5], [1]⟩ = .throw := ⟨rfl, rfl⟩

/-- The constructor with a size makes that many cells zero. -/
theorem C361_zero [Zero α] (arr n : Nat) (m : Buf α) (h : ∀ i, i < n → (m (arr + i)).isSome) :
    ∃ m', fixedZero arr n m = .ok m' ∧ (∀ i, i < n → m' (arr + i) = some 0) ∧ ∀ c, (∀ i, i < n → c ≠ arr + i) → m' c = m c :=
  loop_cells n (fun i => arr + i) (fun _ => 0) (fun i m => m.write (arr + i) 0) m (fun i _ j _ e => by omega) h fun _ _ _ _ => rfl

example : fixedNew 2 ⟨3, [2, 2], [1, 2]⟩ = .ok 3 ∧ fixedCell 3 [2, 1] [1, 0] = 5 ∧ 3 + dot [1, 2] [1, 0] = 4 := ⟨rfl, rfl, rfl⟩

/-! ### C357 `batched_cmvprod` -/

theorem loop_list {β : Type} (n : Nat) (l : List β) (g : Nat → List β) :
    (loop n l fun i l => Res.ok (l ++ g i)) = .ok (l ++ (List.range n).flatMap g) := by
  unfold loop
  generalize List.range n = L
  induction L generalizing l with
  | nil => simp
  | cons a L ih => rw [Res.forM_cons, Res.ok_bind, ih]; simp

/-- One call for every batch `b`, row `j` and column `k`, in row-major order, with the blocks `r[b,j]`, `x[b,j,k]` and `y[b,k]`. -/
theorem C357_calls (r x y : CHV) (h0 : x.ns.getD 0 0 = r.ns.getD 0 0 ∧ r.ns.getD 0 0 = y.ns.getD 0 0) (h1 : x.ns.getD 1 0 = r.ns.getD 1 0)
    (h2 : x.ns.getD 2 0 = y.ns.getD 1 0) :
    batchedCalls r x y = .ok ((List.range (x.ns.getD 0 0)).flatMap fun b => (List.range (x.ns.getD 1 0)).flatMap fun j =>
      (List.range (x.ns.getD 2 0)).map fun k => ((r.slice 0 b).slice 0 j, ((x.slice 0 b).slice 0 j).slice 0 k, (y.slice 0 b).slice 0 k)) := by
  unfold batchedCalls
  simp only
  rw [decide_eq_true h0, decide_eq_true h1, decide_eq_true h2, Res.assrt_true, Res.ok_bind, Res.ok_bind, Res.ok_bind]
  have e : ∀ (n : Nat) (f : Nat → CHV × CHV × CHV), (List.range n).flatMap (fun k => [f k]) = (List.range n).map f := by
    intro n f
    induction List.range n with
    | nil => rfl
    | cons a L ih => simp [ih]
  simp only [loop_list, h0.1, e]
  rw [List.nil_append]

/-- Where the blocks lie: two leading indices of `r` and `y`, three of `x`. -/
theorem C357_blocks (v : CHV) (hl : v.ns.length = v.ss.length) (h : 2 ≤ v.ns.length) (b j : Nat) (hb : b < v.ns.getD 0 0) (hj : j < v.ns.getD 1 0) (m : Buf α) (X : List Nat → Cx α)
    (hX : v.Has m X) : ((v.slice 0 b).slice 0 j).ns = v.ns.drop 2 ∧ ((v.slice 0 b).slice 0 j).Has m (fun ix => X (b :: j :: ix)) ∧
    ∀ k, 3 ≤ v.ns.length → k < v.ns.getD 2 0 → (((v.slice 0 b).slice 0 j).slice 0 k).ns = v.ns.drop 3 ∧
      (((v.slice 0 b).slice 0 j).slice 0 k).Has m fun ix => X (b :: j :: k :: ix) := by
  obtain ⟨arr, arrc, ns, ss⟩ := v
  match ns, ss, hl with
  | [], _, _ => simp at h
  | [_], _, _ => simp at h
  | n0 :: n1 :: ns, s0 :: s1 :: ss, hl =>
    simp only [List.length_cons, Nat.add_right_cancel_iff] at hl
    obtain ⟨-, g1⟩ := C338_slice_entries ⟨arr, arrc, n0 :: n1 :: ns, s0 :: s1 :: ss⟩ (by simp [hl]) 0 b (by simp) hb m X hX
    obtain ⟨-, g2⟩ := C338_slice_entries (CHV.slice ⟨arr, arrc, n0 :: n1 :: ns, s0 :: s1 :: ss⟩ 0 b) (by simp [CHV.slice, hl]) 0 j (by simp [CHV.slice])
      hj m _ g1
    refine ⟨rfl, g2, fun k h3 hk => ⟨?_, ?_⟩⟩
    · show ns.eraseIdx 0 = ns.drop 1
      simp
    · exact (C338_slice_entries _ (by simp [CHV.slice, hl]) 0 k (by simp [CHV.slice] at h3 ⊢; omega) hk m _ g2).2

theorem C357_refused (r x y : CHV) (h : ¬ ((x.ns.getD 0 0 = r.ns.getD 0 0 ∧ r.ns.getD 0 0 = y.ns.getD 0 0) ∧ x.ns.getD 1 0 = r.ns.getD 1 0 ∧ x.ns.getD 2 0 = y.ns.getD 1 0)) :
    batchedCalls r x y = .throw := by
  unfold batchedCalls
  simp only
  by_cases h0 : x.ns.getD 0 0 = r.ns.getD 0 0 ∧ r.ns.getD 0 0 = y.ns.getD 0 0
  · by_cases h1 : x.ns.getD 1 0 = r.ns.getD 1 0
    · have h2 : ¬ x.ns.getD 2 0 = y.ns.getD 1 0 := fun h2 => h ⟨h0, h1, h2⟩
      rw [decide_eq_true h0, decide_eq_true h1, decide_eq_false h2]; rfl
    · rw [decide_eq_true h0, decide_eq_false h1]; rfl
  · rw [decide_eq_false h0]; rfl

example : batchedCalls ⟨0, 1, [1, 1, 1, 1], [2, 2, 2, 2]⟩ ⟨2, 3, [1, 1, 2, 1, 1], [4, 4, 2, 2, 2]⟩ ⟨6, 7, [1, 2, 1, 1], [4, 2, 2, 2]⟩ =
    .ok [(⟨0, 1, [1, 1], [2, 2]⟩, ⟨2, 3, [1, 1], [2, 2]⟩, ⟨6, 7, [1, 1], [2, 2]⟩), (⟨0, 1, [1, 1], [2, 2]⟩, ⟨4, 5, [1, 1], [2, 2]⟩, ⟨8, 9, [1, 1], [2, 2]⟩)] := rfl

/-! ### C358 `as_real` -/

/-- One more axis, of size 2: real and imaginary part. -/
theorem C358_as_real (v : CHV) (hl : v.ns.length = v.ss.length) (hc : v.arrc = v.arr + 1) (m : Buf α) (X : List Nat → Cx α) (hX : v.Has m X) :
    ∃ w, v.asReal = .ok w ∧ w.ns = v.ns ++ [2] ∧ w.Has m fun ix => if ix.getD v.ns.length 0 = 0 then (X (ix.take v.ns.length)).re else (X (ix.take v.ns.length)).im := by
  refine ⟨⟨v.arr, v.ns ++ [2], v.ss ++ [1]⟩, by rw [CHV.asReal, decide_eq_true hc]; rfl, rfl, fun ix hi => ?_⟩
  have hi : InRange ix (v.ns ++ [2]) := hi
  obtain ⟨h1, h2⟩ := GT.inRange_split hi
  obtain ⟨c, hc2, e⟩ : ∃ c, c < 2 ∧ ix.drop v.ns.length = [c] := by
    generalize ix.drop v.ns.length = L at h2
    match L, h2.length with
    | [c], _ => rw [inRange_cons] at h2; exact ⟨c, h2.1, rfl⟩
  have hg : ix.getD v.ns.length 0 = c := by
    have := congrArg (fun l : List Nat => l.getD 0 0) e
    simpa [List.getD_eq_getElem?_getD] using this
  have hd : dot (v.ss ++ [1]) ix = dot v.ss (ix.take v.ns.length) + c := by
    conv_lhs => rw [← List.take_append_drop v.ns.length ix, e]
    rw [dot_append _ _ _ _ (by rw [h1.length, hl])]
    simp
  obtain ⟨g1, g2⟩ := hX _ h1
  show m (v.arr + dot (v.ss ++ [1]) ix) = _
  rw [hd]
  dsimp only
  rw [hg]
  match c, hc2 with
  | 0, _ => rw [if_pos rfl]; exact g1
  | 1, _ =>
    rw [if_neg (by omega), ← g2, hc]
    congr 1
    omega

theorem C358_refused (v : CHV) (hc : v.arrc ≠ v.arr + 1) : v.asReal = .throw := by
  rw [CHV.asReal, decide_eq_false hc]
  rfl

example : (CHV.mk 4 5 [2, 3] [6, 2]).asReal = .ok ⟨4, [2, 3, 2], [6, 2, 1]⟩ := rfl

/-! ### C359 `fuse0X` -/

/-- The first axis, and all others in row-major order.  Missing: views in which some step is not as long as the next axis. -/
theorem C359_fuse0X_partial (v : CHV) (hl : v.ns.length = v.ss.length) (hn : 2 ≤ v.ns.length) (hv : ∀ j, j + 1 < v.ns.length → v.Linked j)
    (hs : 0 < v.ss.getD (v.ss.length - 1) 0) :
    ∃ w, v.fuse0X = .ok w ∧ w.arr = v.arr ∧ w.arrc = v.arrc ∧ w.n0 = v.ns.getD 0 0 ∧ w.n1 = (v.ns.drop 1).prod ∧
      ∀ i ix, ix.length + 1 = v.ns.length → w.off i (position (v.ns.drop 1) ix) = dot v.ss (i :: ix) := by
  obtain ⟨g1, g2⟩ := chain v.ns v.ss hl hv (v.ss.length - 1) (by omega)
  obtain ⟨arr, arrc, ns, ss⟩ := v
  match ns, ss, hl with
  | [], _, _ => simp at hn
  | [_], _, _ => simp at hn
  | n :: n' :: ns, s :: s' :: ss, hl =>
    have hlast : (s :: s' :: ss).getLastD 0 = (s :: s' :: ss).getD ((s :: s' :: ss).length - 1) 0 := by
      rw [List.getLastD_eq_getLast?, List.getLast?_eq_getElem?, List.getD_eq_getElem?_getD]
    simp only [List.length_cons, Nat.add_sub_cancel] at hs g1 g2 hlast
    generalize hL : (s :: s' :: ss).getD (ss.length + 1) 0 = L at hs g1 g2 hlast
    simp only [List.getD_cons_zero, List.tail_cons] at g1
    have hdiv : s / L = (n' :: ns).prod := by rw [g1, Nat.mul_div_cancel _ hs]
    refine ⟨⟨arr, arrc, n, s / L, s, L⟩, ?_, rfl, rfl, rfl, hdiv, fun i ix hi => ?_⟩
    · simp only [CHV.fuse0X, hlast]
      rw [decide_eq_true (show L ≠ 0 by omega)]
      rfl
    · rw [g2 (i :: ix) (by simpa using hi), position]
      simp only [CV2.off, List.drop_succ_cons, List.drop_zero]
      rw [g1]
      ring

theorem C359_one_partial (arr arrc n s : Nat) : ∃ w, (CHV.mk arr arrc [n] [s]).fuse0X = .ok w ∧ w.n0 = n ∧ w.n1 = 1 ∧ ∀ i, w.off i 0 = dot [s] [i] := by
  refine ⟨_, rfl, rfl, rfl, fun i => ?_⟩
  simp [CV2.off, Nat.mul_comm]

/-- Rows with a gap between them: the gap is taken for entries. -/
theorem C359_gap_fails : ∃ w, (CHV.mk 0 1 [2, 3] [8, 2]).fuse0X = .ok w ∧ w.n1 = 4 := ⟨_, rfl, rfl⟩

example : (CHV.mk 0 1 [2, 3, 2] [12, 4, 2]).fuse0X = .ok ⟨0, 1, 2, 6, 12, 2⟩ := rfl

/-! ### C360 six strides -/

/-- `Gstrides(i0,i1,i2,i3,i4,i5)`: the sixth is written outside the vector, for all arguments. -/
theorem C360_six_fails (i0 i1 i2 i3 i4 i5 : Nat) : strides6 i0 i1 i2 i3 i4 i5 = .ub := rfl

example : strides6 6 5 4 3 2 1 = .ub := rfl

end Cnine
