import Verif.Lemmas.Strides
import Verif.Lemmas.Gvec

/-!
# Properties of indices, dims and strides (C01–C10)

Specification vocabulary (`InRange`, `allIndices`, `position`, `dot`) is in `Verif/Spec/Index.lean`.
-/

namespace Cnine

/-! ## C01 -/

/-- Decoding a linear position gives an in-range index that encodes back to the position. -/
theorem C01_decode_then_encode (dims : List Nat) (a : Nat) (ha : a < asize dims) :
    ∃ ix, decode a dims = .ok ix ∧ InRange ix dims ∧ encode ix dims = .ok a := by
  rw [asize_eq] at ha
  have hd := pos_of_prod_pos (l := dims) (by omega)
  obtain ⟨ix, h, hin, hp⟩ := decode_ok a dims hd
  refine ⟨ix, h, hin, ?_⟩
  rw [encode_eq_position _ _ hin.length, hp, Nat.mod_eq_of_lt ha]

/-- Encoding an in-range index gives a position below the total size that decodes back to it. -/
theorem C01_encode_then_decode (dims ix : List Nat) (h : InRange ix dims) :
    ∃ a, encode ix dims = .ok a ∧ a < asize dims ∧ decode a dims = .ok ix := by
  refine ⟨position dims ix, encode_eq_position _ _ h.length, ?_, ?_⟩
  · rw [asize_eq]; exact position_lt h
  · have hd := pos_of_prod_pos (l := dims) (Nat.lt_of_le_of_lt (Nat.zero_le _) (position_lt h))
    obtain ⟨jx, hj, hin, hp⟩ := decode_ok (position dims ix) dims hd
    rw [Nat.mod_eq_of_lt (position_lt h)] at hp
    rw [hj, position_inj hin h hp]

/-- A zero extent makes decoding undefined (modulo by zero). -/
theorem C01_decode_zero_dim (dims : List Nat) (a : Nat) (h : 0 ∈ dims) : decode a dims = .ub := by
  have key : ∀ (l : List Nat) (a : Nat), 0 ∈ l → decodeRev a l = .ub := by
    intro l
    induction l with
    | nil => simp
    | cons d l ih =>
      intro a h
      rw [decodeRev]
      split
      · rfl
      · rename_i hd
        rcases List.mem_cons.1 h with h | h
        · exact absurd h.symm hd
        · rw [ih _ h]; rfl
  rw [decode, key _ _ (by simpa using h)]; rfl

example : decode 17 [2, 3, 4] = .ok [1, 1, 1] ∧ (17 < asize [2, 3, 4]) ∧ encode [1, 1, 1] [2, 3, 4] = .ok 17 := by
  decide
example : InRange [1, 2, 3] [2, 3, 4] := by unfold InRange; simp
example : decode 3 [2, 0] = .ub := by decide

/-! ## C02 -/

/-- The callback of `for_each_index` is called once for every legal index, in row-major order. -/
theorem C02_foreach_index_partial (dims : List Nat) (h : dims ≠ []) :
    ∃ calls, foreachIndex dims = .ok calls ∧ calls.Nodup ∧ (∀ ix, ix ∈ calls ↔ InRange ix dims) ∧
      calls.length = asize dims ∧
      ∀ n (hn : n < calls.length), position dims calls[n] = n := by
  refine ⟨allIndices dims, foreachIndex_eq h, allIndices_nodup dims, fun ix => mem_allIndices, ?_, ?_⟩
  · rw [allIndices_length, asize_eq]
  · intro n hn
    have h1 := map_position_allIndices dims
    have h2 : ((allIndices dims).map (position dims))[n]'(by simpa using hn) = n := by
      simp [h1]
    simpa using h2

/-- Rank 0 has one cell (`asize` is 1, the empty index is legal) but the callback is never called. -/
theorem C02_foreach_index_rank0_fails :
    foreachIndex [] = .ok [] ∧ asize [] = 1 ∧ InRange [] [] := ⟨rfl, rfl, List.Forall₂.nil⟩

example : foreachIndex [2, 3] = .ok [[0,0],[0,1],[0,2],[1,0],[1,1],[1,2]] := by decide
example : foreachIndex [2, 0, 3] = .ok [] := by decide

/-! ## C03 -/

/-- Default strides: the offset of a legal index is its row-major position, offsets are distinct and
fill `0..asize-1`. -/
theorem C03_row_major_strides (dims : List Nat) :
    (rmStrides dims).length = dims.length ∧
    (∀ ix, InRange ix dims → offs (rmStrides dims) ix = .ok (position dims ix) ∧ position dims ix < asize dims) ∧
    (∀ ix jx, InRange ix dims → InRange jx dims →
      offs (rmStrides dims) ix = offs (rmStrides dims) jx → ix = jx) ∧
    (∀ a, a < asize dims → ∃ ix, InRange ix dims ∧ offs (rmStrides dims) ix = .ok a) := by
  have hoffs : ∀ ix, InRange ix dims → offs (rmStrides dims) ix = .ok (position dims ix) := by
    intro ix h
    rw [offs_eq _ _ (by simp [h.length]), dot_rmStrides _ _ h.length]
  refine ⟨by simp, ?_, ?_, ?_⟩
  · intro ix h
    exact ⟨hoffs ix h, by rw [asize_eq]; exact position_lt h⟩
  · intro ix jx hi hj h
    rw [hoffs ix hi, hoffs jx hj] at h
    exact position_inj hi hj (by simpa using h)
  · intro a ha
    obtain ⟨ix, _, hin, he⟩ := C01_decode_then_encode dims a ha
    refine ⟨ix, hin, ?_⟩
    rw [hoffs ix hin, ← encode_eq_position _ _ hin.length, he]

/-- With a base stride `s0` (`GstridesB(dims,s0)`) every offset is scaled by `s0`. -/
theorem C03_base_stride (s0 : Nat) (dims ix : List Nat) (h : InRange ix dims) :
    offs (rmStridesFrom s0 dims) ix = .ok (s0 * position dims ix) := by
  rw [offs_eq _ _ (by simp [h.length]), dot_rmStridesFrom _ _ _ h.length]

/-- An index longer than the stride vector is refused. -/
theorem C03_offs_refuses (ss ix : List Nat) (h : ss.length < ix.length) : offs ss ix = .throw := by
  simp [offs, Nat.not_le.2 h]

example : rmStrides [2, 3, 4] = [12, 4, 1] ∧ offs [12, 4, 1] [1, 2, 3] = .ok 23 := by decide
example : offs (rmStridesFrom 2 [2, 3]) [1, 2] = .ok 10 := by decide

/-! ## C04 -/

/-- The leading-index overload ignores the leading index: it always uses 1. -/
theorem C04_offs_lead_value (s0 : Nat) (ss : List Nat) (i : Nat) (ix : List Nat) (h : ix.length ≤ ss.length) :
    offsLead (s0 :: ss) i ix = offs (s0 :: ss) (1 :: ix) := by
  rw [offs_eq _ _ (by simpa using h)]
  simp [offsLead, h, offsLoop_eq]

/-- The overload agrees with the plain offset for `i = 1` (only then for every stride vector). -/
theorem C04_offs_lead_partial (s0 : Nat) (ss ix : List Nat) (h : ix.length ≤ ss.length) (i : Nat) :
    offsLead (s0 :: ss) i ix = offs (s0 :: ss) (i :: ix) ↔ (s0 = 0 ∨ i = 1) := by
  rw [C04_offs_lead_value _ _ _ _ h, offs_eq _ _ (by simpa using h), offs_eq _ _ (by simpa using h)]
  simp only [dot_cons, Res.ok.injEq, Nat.add_right_cancel_iff]
  constructor
  · intro h
    rcases Nat.eq_zero_or_pos s0 with h0 | h0
    · exact Or.inl h0
    · exact Or.inr (Nat.eq_of_mul_eq_mul_left h0 h).symm
  · rintro (rfl | rfl) <;> simp

/-- The property itself is false. -/
theorem C04_offs_lead_fails :
    ¬ ∀ (ss : List Nat) (i : Nat) (ix : List Nat), ix.length + 1 ≤ ss.length →
      offsLead ss i ix = offs ss (i :: ix) := by
  intro h
  have := h [4, 1] 0 [2] (by decide)
  revert this; decide

example : offsLead [12, 4, 1] 0 [2, 3] = .ok 23 ∧ offs [12, 4, 1] [0, 2, 3] = .ok 11 := by decide

/-! ## C05 -/

/-- Strides are nested in some axis order: each axis that is actually walked steps over everything
the axes listed after it can reach, and some axis has a positive stride. -/
def Nested (dims strides : List Nat) : Prop :=
  ∃ l, l.Perm (dims.zip strides) ∧
    ∃ d s r, l = (d, s) :: r ∧ 0 < s ∧ span r < s

/-- Under nestedness of the outermost axis, every cell offset is below `memsize`. -/
theorem C05_memsize_bound_partial (dims strides ix : List Nat) (hlen : strides.length = dims.length)
    (hin : InRange ix dims) (hn : Nested dims strides) :
    ∃ n a, memsize strides dims = .ok n ∧ offs strides ix = .ok a ∧ a < n := by
  obtain ⟨l, hl, d, s, r, rfl, hs, hsp⟩ := hn
  have hprod : 0 < dims.prod := Nat.lt_of_le_of_lt (Nat.zero_le _) (position_lt hin)
  have hmem : (d, s) ∈ dims.zip strides := hl.mem_iff.1 (by simp)
  have hdpos : 0 < d := pos_of_prod_pos hprod d (List.of_mem_zip hmem).1
  have hne : strides.length ≠ 0 := by
    intro h0
    have : strides = [] := List.length_eq_zero_iff.1 h0
    subst this; simp at hmem
  refine ⟨(strides.zip dims).foldl (fun t p => max t (p.1 * p.2)) 0, _, ?_,
    offs_eq _ _ (by rw [hin.length, hlen]), ?_⟩
  · simp only [memsize, hlen, decide_true, Res.assrt_true, Res.ok_bind]
    rw [if_neg (by omega), if_neg (by rw [asize_eq]; omega)]
  · have h1 := dot_le_span dims strides ix hin
    rw [← span_perm hl] at h1
    simp only [span] at h1
    have hmem' : (s, d) ∈ strides.zip dims := by
      obtain ⟨k, h1, h2, e1, e2⟩ := mem_zip_getElem hmem
      simp only at e1 e2
      rw [← e1, ← e2]
      exact mem_zip_of_getElem h2 h1
    have h2 := (foldl_max_ge (strides.zip dims) 0).2 (s, d) hmem'
    simp only at h2
    have h3 : (d - 1) * s + s = s * d := by
      obtain ⟨e, rfl⟩ : ∃ e, d = e + 1 := ⟨d - 1, by omega⟩
      simp; ring
    omega

/-- For row-major strides `memsize` is exactly the number of cells. -/
theorem C05_memsize_row_major (dims : List Nat) : memsize (rmStrides dims) dims = .ok (asize dims) := by
  simp only [memsize, rmStrides_length, decide_true, Res.assrt_true, Res.ok_bind]
  cases dims with
  | nil => rfl
  | cons d ds =>
    rw [if_neg (by simp)]
    split
    · rename_i h; rw [h]
    · rename_i h
      congr 1
      rw [asize_eq]
      rw [asize_eq] at h
      apply Nat.le_antisymm
      · apply foldl_max_le
        · omega
        · have key : ∀ (l : List Nat), l.prod ≠ 0 → ∀ p ∈ (rmStrides l).zip l, p.1 * p.2 ≤ l.prod := by
            intro l
            induction l with
            | nil => simp
            | cons e l ih =>
              intro hne p hp
              rw [rmStrides_cons, List.zip_cons_cons] at hp
              rw [List.prod_cons] at hne ⊢
              rcases List.mem_cons.1 hp with rfl | hp
              · simp [Nat.mul_comm]
              · have h1 := ih (by intro h0; simp [h0] at hne) p hp
                have h2 : 1 ≤ e := by
                  rcases Nat.eq_zero_or_pos e with h0 | h0
                  · simp [h0] at hne
                  · exact h0
                calc p.1 * p.2 ≤ l.prod := h1
                  _ = 1 * l.prod := by simp
                  _ ≤ e * l.prod := Nat.mul_le_mul_right _ h2
          exact key _ h
      · have := (foldl_max_ge ((rmStrides (d :: ds)).zip (d :: ds)) 0).2 (ds.prod, d)
          (by rw [rmStrides_cons]; simp)
        simpa [Nat.mul_comm] using this

/-- The general claim is false: overlapping strides reach past `memsize`. -/
theorem C05_memsize_bound_fails :
    ¬ ∀ (dims strides ix : List Nat) n a, strides.length = dims.length → InRange ix dims →
      memsize strides dims = .ok n → offs strides ix = .ok a → a < n := by
  intro h
  have := h [2, 2] [1, 1] [1, 1] 2 2 rfl (by unfold InRange; simp) (by decide) (by decide)
  omega

/-- A fully broadcast view (all strides 0) reports memory size 0 although cell 0 is used. -/
theorem C05_memsize_broadcast_zero (n : Nat) (hn : 0 < n) :
    memsize [0] [n] = .ok 0 ∧ InRange [0] [n] ∧ offs [0] [0] = .ok 0 := by
  refine ⟨by simp [memsize, asize], ?_, by decide⟩
  unfold InRange; simpa using hn

example : Nested [3, 4] [4, 1] := ⟨[(3, 4), (4, 1)], List.Perm.refl _, 3, 4, [(4, 1)], rfl, by decide, by decide⟩
example : memsize [4, 1] [3, 4] = .ok 12 := by decide

/-! ## C06 -/

/-- `ordering` is the stable sorting permutation of the strides. -/
theorem C06_ordering (strides : List Nat) (h : ∀ s ∈ strides, s < intMax) :
    (ordering strides).Perm (List.range strides.length) ∧
    (ordering strides).Pairwise (fun a b =>
      strides[a]?.getD 0 < strides[b]?.getD 0 ∨ (strides[a]?.getD 0 = strides[b]?.getD 0 ∧ a < b)) :=
  ordering_spec strides h

/-- `descending_ordering` is the stable descending permutation when no stride is zero. -/
theorem C06_descending_ordering_partial (strides : List Nat) (h : ∀ s ∈ strides, 0 < s) :
    (descOrdering strides).Perm (List.range strides.length) ∧
    (descOrdering strides).Pairwise (fun a b =>
      strides[b]?.getD 0 < strides[a]?.getD 0 ∨ (strides[a]?.getD 0 = strides[b]?.getD 0 ∧ a < b)) :=
  descOrdering_spec strides h

/-- With a zero stride the result need not be a permutation. -/
theorem C06_descending_ordering_fails :
    ¬ ∀ strides : List Nat, (descOrdering strides).Perm (List.range strides.length) := by
  intro h
  have := h [1, 0]
  revert this; decide

/-- A stride at or above the sentinel breaks the ascending version as well. -/
theorem C06_ordering_sentinel_fails :
    ¬ ∀ strides : List Nat, (ordering strides).Perm (List.range strides.length) := by
  intro h
  have := h [1, 2147483648]
  revert this; decide

example : ordering [12, 1, 4, 1] = [1, 3, 2, 0] ∧ ∀ s ∈ [12, 1, 4, 1], s < intMax := by decide
example : descOrdering [1, 12, 4, 12] = [1, 3, 2, 0] := by decide

/-! ## C07 -/

/-- If the contiguity test succeeds and no axis with more than one position has stride zero, the cells
are exactly `0..asize-1`, each reached once. -/
theorem C07_contiguous_sound_partial (strides dims : List Nat)
    (h : isContiguous strides dims = .ok true)
    (hz : ∀ k (h1 : k < strides.length) (h2 : k < dims.length), strides[k] = 0 → dims[k] = 1) :
    ((allIndices dims).map (dot strides)).Perm (List.range (asize dims)) := by
  obtain ⟨hlen, hp⟩ := contiguous_cells strides dims h (by
    rintro ⟨d, s⟩ hx h0
    obtain ⟨k, h1, h2, e1, e2⟩ := mem_zip_getElem hx
    simp only at h0 e1 e2 ⊢
    rw [← e1]
    exact hz k h2 h1 (by rw [e2, h0]))
  rw [map_dot_eq_axCells _ _ hlen, asize_eq]
  exact hp

/-- Every axis permutation of a row-major tensor with all extents at least 2 passes the test. -/
theorem C07_contiguous_complete (dims strides bdims : List Nat) (hlen : dims.length = strides.length)
    (hp : (dims.zip strides).Perm (bdims.zip (rmStrides bdims))) (h2 : ∀ d ∈ bdims, 2 ≤ d) :
    isContiguous strides dims = .ok true := by
  simp only [isContiguous, hlen, decide_true, Res.assrt_true, Res.ok_bind, isRegular]
  split
  · rfl
  · congr 1
    have hchain : ∀ l : List Nat, IsChain 1 (l.zip (rmStrides l)).reverse := by
      intro l
      rw [← zip_reverse_swap _ _ (by simp), ← regularLoop_iff]
      have key : ∀ (l : List Nat) (q : List (Nat × Nat)) (t : Nat),
          regularLoop (((rmStrides l).zip l).reverse ++ q) 1 = regularLoop q l.prod := by
        intro l
        induction l with
        | nil => intro q t; simp
        | cons d ds ih =>
          intro q t
          rw [rmStrides_cons, List.zip_cons_cons, List.reverse_cons, List.append_assoc, ih _ t]
          simp [regularLoop, Nat.mul_comm]
      have := key l [] 0
      simp only [List.append_nil] at this
      rw [this]; rfl
    have hstr : ∀ l : List Nat, (∀ d ∈ l, 2 ≤ d) → ∀ x ∈ l.zip (rmStrides l), 0 < x.2 := by
      intro l
      induction l with
      | nil => simp
      | cons d ds ih =>
        intro hl x hx
        rw [rmStrides_cons, List.zip_cons_cons] at hx
        rcases List.mem_cons.1 hx with rfl | hx
        · exact prod_pos_of fun e he => by have := hl e (by simp [he]); omega
        · exact ih (fun e he => hl e (by simp [he])) x hx
    refine contigLoop_complete _ strides dims 1 hlen Nat.one_pos rfl
      (bdims.zip (rmStrides bdims)).reverse (hchain bdims) ?_ ?_
    · intro x hx
      exact h2 _ (List.of_mem_zip (List.mem_reverse.1 hx)).1
    · refine (hp.filter _).trans ?_
      rw [List.filter_eq_self.2 fun x hx => by simpa using hstr bdims h2 x hx]
      exact (List.reverse_perm _).symm

/-- With a genuine broadcast axis the test still answers "contiguous" although the view has
fewer distinct cells than `asize`. -/
theorem C07_contiguous_broadcast_fails :
    isContiguous [0, 1] [3, 4] = .ok true ∧
    ¬ ((allIndices [3, 4]).map (dot [0, 1])).Perm (List.range (asize [3, 4])) := by
  refine ⟨by decide, fun h => ?_⟩
  have h11 : (11 : Nat) ∈ (allIndices [3, 4]).map (dot [0, 1]) := h.mem_iff.2 (by decide)
  revert h11; decide

example : isContiguous [1, 2, 6] [2, 3, 4] = .ok true := by decide
example : ([4, 2, 3].zip [1, 4, 8]).Perm ([3, 2, 4].zip (rmStrides [3, 2, 4])) := by decide

/-! ## C08 -/

/-- A successful fuse describes exactly the old cells as one axis. -/
theorem C08_fuser_partial (strides dims : List Nat) (hlen : strides.length = dims.length)
    (hs : ∀ s ∈ strides, s < intMax) (s n : Nat) (h : fuser strides dims = .ok (some (s, n))) :
    n = asize dims ∧ ((allIndices dims).map (dot strides)).Perm ((List.range n).map (· * s)) := by
  have hperm := ordered_axes_perm strides dims hlen hs
  unfold fuser at h
  generalize hax : ((ordering strides).map fun j => (strides[j]?.getD 0, dims[j]?.getD 0)) = axes at h hperm
  cases axes with
  | nil => simp at h
  | cons x r =>
    obtain ⟨s0, d0⟩ := x
    simp only at h
    split at h
    · simp at h
    · rename_i hc
      split at h
      · simp at h
      · rename_i h0
        obtain ⟨hch, hlast⟩ := fuserCheck_chain s0 d0 r (by simpa using hc)
        simp only [Res.ok.injEq, Option.some.injEq, Prod.mk.injEq] at h
        obtain ⟨rfl, hn⟩ := h
        rw [hlast, Nat.mul_div_cancel_left _ (Nat.pos_of_ne_zero h0)] at hn
        have hprod : (((s0, d0) :: r).map Prod.snd).prod = dims.prod := by
          rw [(hperm.map Prod.snd).prod_eq, List.map_snd_zip (by omega)]
        have hna : n = asize dims := by rw [asize_eq, ← hn, hprod]
        refine ⟨hna, ?_⟩
        rw [map_dot_eq_axCells _ _ hlen.symm]
        have hsw : (dims.zip strides).Perm (((s0, d0) :: r).map fun p => (p.2, p.1)) := by
          have h1 := (hperm.map fun p => (p.2, p.1)).symm
          have h2 : (strides.zip dims).map (fun p => (p.2, p.1)) = dims.zip strides := by
            apply List.ext_getElem
            · simp [Nat.min_comm]
            · intro i h1 h2; simp
          rwa [h2] at h1
        have h3 := (axCells_perm hsw).trans (axCells_chain s0 _ hch)
        rw [axCells_single] at h3
        have h4 : ((((s0, d0) :: r).map fun p => (p.2, p.1)).map Prod.fst).prod = n := by
          rw [← hn, List.map_map]; rfl
        rwa [h4] at h3

/-- Without axes, or when the smallest stride is 0, the call is undefined (out-of-range read or
division by zero). -/
theorem C08_fuser_undefined : fuser [] [] = .ub ∧ fuser [0] [3] = .ub := by decide

example : fuser [12, 4] [2, 3] = .ok (some (4, 6)) ∧ fuser [12, 4] [2, 2] = .ok none := by decide

/-! ## C87 -/

/-- Strides in decreasing nested order: each axis steps over everything its successors reach. -/
def Descends : List Nat → List Nat → Prop
  | q :: qs, d :: ds => span (ds.zip qs) < q ∧ Descends qs ds
  | [], [] => True
  | _, _ => False

theorem reoffsLoop_ok : ∀ (ss qs ds ix : List Nat) (t : Nat), ss.length = qs.length → Descends qs ds →
    InRange ix ds → reoffsLoop ss qs (dot qs ix) t = .ok (t + dot ss ix)
  | [], [], _, _, t, _, _, _ => by simp [reoffsLoop]
  | [], _ :: _, _, _, _, h, _, _ => by simp at h
  | _ :: _, [], _, _, _, h, _, _ => by simp at h
  | _ :: _, _ :: _, [], _, _, _, h, _ => by simp [Descends] at h
  | s :: ss, q :: qs, d :: ds, [], t, _, _, h => by cases h
  | s :: ss, q :: qs, d :: ds, i :: ix, t, hl, hd, h => by
    obtain ⟨_, h2⟩ : i < d ∧ InRange ix ds := by cases h; constructor <;> assumption
    obtain ⟨hq, hd⟩ := hd
    have hlt := Nat.lt_of_le_of_lt (dot_le_span ds qs ix h2) hq
    have hdiv : (dot (q :: qs) (i :: ix)) / q = i := by
      rw [dot_cons, Nat.mul_add_div (by omega), Nat.div_eq_of_lt hlt, Nat.add_zero]
    have hmod : dot (q :: qs) (i :: ix) - i * q = dot qs ix := by
      rw [dot_cons, Nat.mul_comm]; omega
    rw [reoffsLoop, if_neg (by omega), hdiv, hmod,
      reoffsLoop_ok ss qs ds ix _ (by simpa using hl) hd h2, dot_cons, Nat.add_assoc]

/-- Re-addressing: the offset of index `ix` in a layout with nested decreasing strides is mapped to the
offset of the same index in the other layout. -/
theorem C87_reoffs_partial (strides source dims ix : List Nat) (hl : strides.length = source.length)
    (hd : Descends source dims) (h : InRange ix dims) :
    reoffs strides (dot source ix) source = .ok (dot strides ix) := by
  rw [reoffs, reoffsLoop_ok strides source dims ix 0 hl hd h, Nat.zero_add]

example : Descends [12, 4, 1] [2, 3, 4] ∧ InRange [1, 2, 3] [2, 3, 4] ∧
    reoffs [1, 2, 6] 23 [12, 4, 1] = .ok 23 ∧ reoffs [100, 10, 1] 23 [12, 4, 1] = .ok 123 := by
  refine ⟨by simp [Descends, span], ?_, by decide, by decide⟩
  repeat' constructor

theorem descends_rmStrides : ∀ dims : List Nat, (∀ d ∈ dims, 0 < d) → Descends (rmStrides dims) dims ∧
    span (dims.zip (rmStrides dims)) < dims.prod
  | [], _ => by simp [Descends, span]
  | d :: ds, h => by
    obtain ⟨h1, h2⟩ := descends_rmStrides ds (fun x hx => h x (List.mem_cons_of_mem _ hx))
    have hd : 0 < d := h d (by simp)
    rw [rmStrides_cons]
    refine ⟨⟨h2, h1⟩, ?_⟩
    simp only [List.zip_cons_cons, span, List.prod_cons]
    obtain ⟨e, rfl⟩ : ∃ e, d = e + 1 := ⟨d - 1, by omega⟩
    rw [Nat.add_sub_cancel, Nat.add_mul]
    omega

/-- In particular from the row-major layout: the linear position is decoded. -/
theorem C87_reoffs_row_major (strides dims ix : List Nat) (hl : strides.length = dims.length)
    (h : InRange ix dims) : reoffs strides (position dims ix) (rmStrides dims) = .ok (dot strides ix) := by
  have hp : ∀ d ∈ dims, 0 < d := by
    intro d hd
    obtain ⟨k, hk, rfl⟩ := List.getElem_of_mem hd
    have hk' : k < ix.length := by rw [h.length]; exact hk
    have := List.forall₂_iff_get.1 h
    exact Nat.lt_of_le_of_lt (Nat.zero_le _) (this.2 k hk' hk)
  rw [← dot_rmStrides dims ix h.length]
  exact C87_reoffs_partial strides _ dims ix (by simpa using hl) (descends_rmStrides dims hp).1 h

example : InRange [1, 2] [2, 3] ∧ reoffs [1, 2] (position [2, 3] [1, 2]) (rmStrides [2, 3]) = .ok 5 := by
  refine ⟨?_, by decide⟩
  repeat' constructor

/-- A source layout whose strides are not in decreasing order is re-addressed wrongly: index (0,1) of a
column-major 2×2 source goes to the cell of an out-of-range index. -/
theorem C87_reoffs_fails : reoffs [2, 1] (dot [1, 2] [0, 1]) [1, 2] = .ok 4 ∧ dot [2, 1] [0, 1] = 1 := by decide

/-- A source layout with a zero stride divides by zero. -/
theorem C87_reoffs_zero_fails (s j : Nat) (ss qs : List Nat) : reoffs (s :: ss) j (0 :: qs) = .ub := by
  simp [reoffs, reoffsLoop]

/-! ## C09 -/

/-- `insert(j,x)`: contents, total size, and `remove(j)` undoes it. -/
theorem C09_insert_remove {α} (l : List α) (j : Nat) (x : α) (h : j ≤ l.length) :
    ∃ r, gvInsert l j x = .ok r ∧ r.length = l.length + 1 ∧ r[j]? = some x ∧
      (∀ i, i < j → r[i]? = l[i]?) ∧ (∀ i, j ≤ i → r[i + 1]? = l[i]?) ∧ gvRemove r j = .ok l := by
  refine ⟨l.take j ++ x :: l.drop j, by simp [gvInsert, h], by simp; omega, ?_, ?_, ?_, ?_⟩
  · rw [List.getElem?_append_right (by simp [h])]; simp [h]
  · intro i hi
    rw [List.getElem?_append_left (by simp; omega)]; simp [hi]
  · intro i hi
    rw [List.getElem?_append_right (by simp; omega)]
    have : i + 1 - (l.take j).length = (i - j) + 1 := by simp; omega
    rw [this, List.getElem?_cons_succ, List.getElem?_drop]
    congr 1; omega
  · have hl : j < (l.take j ++ x :: l.drop j).length := by simp; omega
    simp only [gvRemove, hl, decide_true, Res.assrt_true, Res.ok_bind]
    congr 1
    have ht : (l.take j).length = j := by simp [h]
    have e1 : (l.take j ++ x :: l.drop j).take j = l.take j := by
      conv => lhs; arg 1; rw [← ht]
      rw [ht]; exact List.take_left' ht
    have e2 : (l.take j ++ x :: l.drop j).drop (j + 1) = l.drop j := by
      rw [← List.drop_drop, List.drop_left' ht]; rfl
    rw [e1, e2, List.take_append_drop]

/-- Inserting an extent multiplies the total size; removing divides it out. -/
theorem C09_insert_size (l : List Nat) (j x : Nat) (r : List Nat) (h : gvInsert l j x = .ok r) :
    asize r = x * asize l := by
  unfold gvInsert at h
  split at h
  · simp only [Res.ok.injEq] at h
    subst h
    simp only [asize_eq, List.prod_append, List.prod_cons]
    conv => rhs; rw [← List.take_append_drop j l, List.prod_append]
    ring
  · simp at h

/-- `remove(j)` then `insert(j, old)` gives back the list; out of range is refused. -/
theorem C09_remove_insert {α} (l : List α) (j : Nat) :
    (∀ h : j < l.length, ∃ r, gvRemove l j = .ok r ∧ r.length + 1 = l.length ∧ gvInsert r j l[j] = .ok l) ∧
    (l.length ≤ j → gvRemove l j = .throw) := by
  constructor
  · intro h
    refine ⟨l.take j ++ l.drop (j + 1), by simp [gvRemove, h], by simp; omega, ?_⟩
    have hle : j ≤ (l.take j ++ l.drop (j + 1)).length := by simp; omega
    have ht : (l.take j).length = j := by simp; omega
    simp only [gvInsert, hle, if_true]
    congr 1
    rw [List.take_left' ht, List.drop_left' ht, ← List.drop_eq_getElem_cons h, List.take_append_drop]
  · intro h
    simp [gvRemove, Nat.not_lt.2 h]

/-- `chunk(0,n)` and `chunk(n)` recombine by `cat`. -/
theorem C09_chunk_cat {α} (l : List α) (n : Nat) (h : n ≤ l.length) :
    ∃ a b, gvChunk l 0 n = .ok a ∧ gvChunk l n (-1) = .ok b ∧ gvCat a b = l ∧ a.length = n := by
  refine ⟨l.take n, l.drop n, ?_, ?_, List.take_append_drop n l, by simp [h]⟩
  · have h1 : ¬ ((n : Int) < 0) := by omega
    have h2 : ¬ ((n : Int) = -1) := by omega
    have h3 : ¬ ((l.length : Int) < n) := by omega
    simp [gvChunk, h1, h2, h3]
  · have h1 : ¬ ((n : Int) < 0) := by omega
    have h3 : ¬ ((l.length : Int) - n < 0) := by omega
    have h4 : ¬ ((l.length : Int) < n + ((l.length : Int) - n)) := by omega
    simp only [gvChunk, h1, if_false, if_true, h3, h4, or_self]
    congr 1
    have : ((l.length : Int) - n).toNat = (l.drop n).length := by simp
    rw [this]; simp

/-- A negative start counts from the end. -/
theorem C09_chunk_negative {α} (l : List α) (k : Nat) (h : 0 < k) (hk : k ≤ l.length) :
    gvChunk l (-(k : Int)) (-1) = .ok (l.drop (l.length - k)) := by
  have h1 : (-(k : Int) < 0) := by omega
  simp only [gvChunk, h1, if_true]
  have h2 : ¬ ((l.length : Int) - ((l.length : Int) + -(k : Int)) < 0) := by omega
  have h3 : ¬ ((l.length : Int) + -(k : Int) < 0 ∨
    (l.length : Int) < (l.length : Int) + -(k : Int) + ((l.length : Int) - ((l.length : Int) + -(k : Int)))) := by omega
  simp only [h2, if_false, h3]
  congr 1
  have e1 : ((l.length : Int) + -(k : Int)).toNat = l.length - k := by omega
  have e2 : ((l.length : Int) - ((l.length : Int) + -(k : Int))).toNat = (l.drop (l.length - k)).length := by
    simp; omega
  rw [e1, e2]; simp

/-- `remove({i₀<i₁<…})` keeps exactly the entries at the other positions, in order. -/
theorem C09_remove_many {α} (l : List α) (ix : List Nat) (hs : ix.Pairwise (· < ·)) (hlt : ∀ i ∈ ix, i < l.length) :
    gvExcept l ix = .ok ((l.zipIdx.filter fun p => !ix.contains p.2).map Prod.fst) := by
  have hnd : ix.Nodup := hs.imp (fun h => Nat.ne_of_lt h)
  have hle : ix.length ≤ l.length := by
    have := (List.subperm_of_subset hnd (fun i hi => List.mem_range.2 (hlt i hi))).length_le
    simpa using this
  rw [gvExcept, if_neg (by omega)]
  exact exceptLoop_eq l.length ix l 0 (by simp) hs (by simp) hlt

/-- Unsorted positions are undefined behaviour, not an error. -/
theorem C09_remove_many_unsorted_ub : gvExcept [10, 11, 12] [2, 0] = .ub := by decide

/-- `permute(p)` by a permutation rearranges; permuting by the inverse restores. -/
theorem C09_permute_inverse {α} (l : List α) (p q : List Nat)
    (hp : p.length = l.length) (hpl : ∀ j ∈ p, j < l.length)
    (hq : q.length = l.length) (hqp : ∀ i, i < l.length → ∃ j, q[i]? = some j ∧ p[j]? = some i) :
    ∃ r, gvPermute l p = .ok r ∧ (∀ (i j : Nat), p[i]? = some j → r[i]? = l[j]?) ∧ gvPermute r q = .ok l := by
  cases l with
  | nil =>
    have : p = [] := List.length_eq_zero_iff.1 hp
    have : q = [] := List.length_eq_zero_iff.1 hq
    subst p q
    exact ⟨[], rfl, by simp, rfl⟩
  | cons d l' =>
    generalize hl : d :: l' = l at *
    have hok := gvPermute_ok l p d hp hpl
    refine ⟨_, hok, ?_, ?_⟩
    · intro i j hij
      have hj : j < l.length := hpl j (List.mem_of_getElem? hij)
      simp [hij, List.getElem?_eq_getElem hj]
    · have hqlt : ∀ j ∈ q, j < (p.map fun j => l[j]?.getD d).length := by
        intro j hj
        obtain ⟨i, hi, rfl⟩ := List.mem_iff_getElem.1 hj
        obtain ⟨j', h1, h2⟩ := hqp i (by omega)
        rw [List.getElem?_eq_getElem hi] at h1
        have := (List.getElem?_eq_some_iff.1 h2).1
        simp at h1 ⊢
        omega
      rw [gvPermute_ok _ q d (by simp [hp, hq]) hqlt]
      congr 1
      apply List.ext_getElem
      · simp [hq]
      · intro i h1 h2
        obtain ⟨j, e1, e2⟩ := hqp i h2
        have hi : i < q.length := by omega
        rw [List.getElem?_eq_getElem hi] at e1
        have e1' : q[i] = j := by simpa using e1
        have hj := (List.getElem?_eq_some_iff.1 e2)
        obtain ⟨hj1, hj2⟩ := hj
        simp [e1', List.getElem?_eq_getElem hj1, hj2, List.getElem?_eq_getElem h2]

example : gvInsert [5, 6, 7] 1 9 = .ok [5, 9, 6, 7] ∧ gvRemove [5, 9, 6, 7] 1 = .ok [5, 6, 7] := by decide
example : gvChunk [5, 6, 7] (-2) (-1) = .ok [6, 7] := by decide
example : gvExcept [10, 11, 12, 13] [0, 2] = .ok [11, 13] := by decide
example : gvPermute [10, 11, 12] [2, 0, 1] = .ok [12, 10, 11] ∧ gvPermute [12, 10, 11] [1, 2, 0] = .ok [10, 11, 12] := by
  decide

/-! ## C10 -/

/-- `is_disjoint` is exact. -/
theorem C10_disjoint (s y : List Int) : gsetIsDisjoint s y = true ↔ ∀ p, p ∈ s → p ∉ y := by
  simp [gsetIsDisjoint]

/-- `covers(n)` and `covers(n,x)` hold exactly when the union contains `0..n-1` (disjointness is not
tested). -/
theorem C10_covers (s x : List Int) (n : Nat) :
    (gsetCovers1 s n = true ↔ ∀ i : Nat, i < n → (i : Int) ∈ s) ∧
    (gsetCovers2 s n x = true ↔ ∀ i : Nat, i < n → (i : Int) ∈ s ∨ (i : Int) ∈ x) := by
  simp [gsetCovers1, gsetCovers2]

/-- `covers(n,x,y)` is `covers(n,x)`: `y` plays no role. -/
theorem C10_covers3_ignores_third (s x y : List Int) (n : Nat) : gsetCovers3 s n x y = gsetCovers2 s n x := by
  simp only [gsetCovers3, gsetCovers2, Bool.or_assoc, Bool.or_self]

/-- So the three-set version is wrong. -/
theorem C10_covers3_fails :
    ¬ ∀ (s x y : List Int) (n : Nat),
      (∀ i : Nat, i < n → (i : Int) ∈ s ∨ (i : Int) ∈ x ∨ (i : Int) ∈ y) → gsetCovers3 s n x y = true := by
  intro h
  have := h [0] [1] [2] 3 (by decide)
  revert this; decide

/-- `is_contiguous` answers false for every non-empty set, runs included. -/
theorem C10_contiguous_fails (s : List Int) (h : s ≠ []) : gsetIsContiguous s = .ok false := by
  cases s with
  | nil => exact absurd rfl h
  | cons p r =>
    have : p ≠ p - 1 := by omega
    simp [gsetIsContiguous, gsetContigLoop, this]

example : gsetIsContiguous [3, 4, 5] = .ok false ∧ gsetIsContiguous [] = .ub := by decide
example : gsetCovers2 [0, 2] 3 [1] = true ∧ gsetIsDisjoint [0, 2] [1] = true := by decide

end Cnine
