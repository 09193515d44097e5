import Verif.Spec.RtensorA
import Verif.Lemmas.HighViews
import Verif.Lemmas.Gtensor
import Verif.Lemmas.RView3
import Verif.Props.Construct
import Mathlib.Data.List.GetD

/-! Tensors of the old backend: positions in the array, and the loops over it. -/

namespace Cnine

variable {α : Type}

namespace RA

theorem roundup_cells (D : List Nat) : GT.roundup D.prod 32 = cells D := by
  unfold GT.roundup cells
  split
  · next h => rw [h]
  · next h => congr 1; omega

theorem cells_pos (D : List Nat) : 1 ≤ cells D ∧ D.prod ≤ cells D := by
  unfold cells
  split <;> omega

theorem noalloc_ok {D : List Nat} (h : D ≠ []) (q : Nat) :
    noalloc q D = .ok ⟨q, D, rmStrides D, D.prod, cells D, cells D, -1, false⟩ := by
  cases D with
  | nil => exact absurd rfl h
  | cons d ds =>
    have e : (rmStridesFrom 1 (d :: ds)).headD 0 * d = (d :: ds).prod := by
      rw [rmStridesFrom_cons, List.headD_cons, Nat.one_mul, List.prod_cons, Nat.mul_comm]
    simp only [noalloc]
    rw [e, roundup_cells]
    rfl

theorem raw_ok {D : List Nat} (h : D ≠ []) (junk : Nat → α) (q : Nat) (m : Buf α) :
    raw junk q D m = .ok (⟨q, D, rmStrides D, D.prod, cells D, cells D, -1, false⟩, allocRaw junk m q (cells D)) := by
  rw [raw, noalloc_ok h, Res.ok_bind]
  simp only [newArr]
  rw [Nat.max_eq_left (cells_pos D).1]

theorem raw_at (junk : Nat → α) (m : Buf α) {q n c : Nat} (h : q ≤ c ∧ c < q + n) : allocRaw junk m q n c = some (junk c) := if_pos h

theorem raw_off (junk : Nat → α) (m : Buf α) {q n c : Nat} (h : ¬ (q ≤ c ∧ c < q + n)) : allocRaw junk m q n c = m c := if_neg h

/-- The entry at a position of the array. -/
def flat (D : List Nat) (f : List Nat → α) (d : α) (i : Nat) : α := (((allIndices D)[i]?).map f).getD d

theorem flat_pos {D ix : List Nat} (h : InRange ix D) (f : List Nat → α) (d : α) : flat D f d (position D ix) = f ix := by
  rw [flat, GT.pick h]; rfl

/-- Reading the array of a tensor. -/
theorem Is.at {x : RA} {D : List Nat} {f : List Nat → α} {m : Buf α} (h : x.Is D f m) (d : α) {i : Nat} (hi : i < D.prod) :
    m (x.arr + i) = some (flat D f d i) := by
  obtain ⟨ix, h1, rfl⟩ := GT.surj hi
  rw [h.has ix h1, flat_pos h1]

theorem Is.strides' {x : RA} {D : List Nat} {f : List Nat → α} {m : Buf α} (h : x.Is D f m) : x.strides = rmStrides D := by
  rw [h.strides, compact_rm]

/-- The same tensor with other contents. -/
theorem Is.mk' {x : RA} {D : List Nat} {f g : List Nat → α} {m m' : Buf α} (h : x.Is D f m)
    (hg : ∀ ix, InRange ix D → m' (x.arr + position D ix) = some (g ix)) : x.Is D g m' :=
  ⟨h.ne, h.dims, h.strides, h.asize, h.room, hg⟩

theorem Is.keep {x : RA} {D : List Nat} {f : List Nat → α} {m m' : Buf α} (h : x.Is D f m)
    (hm : ∀ c, x.Owns c → m' c = m c) : x.Is D f m' :=
  h.mk' fun ix hi => by
    rw [hm _ ⟨Nat.le_add_right _ _, by have := position_lt hi; rw [h.asize]; omega⟩, h.has ix hi]

theorem Is.owns {x : RA} {D : List Nat} {f : List Nat → α} {m : Buf α} (h : x.Is D f m) {i : Nat} (hi : i < D.prod) : x.Owns (x.arr + i) :=
  ⟨Nat.le_add_right _ _, by rw [h.asize]; omega⟩

theorem not_owns {x : RA} {c : Nat} (h : ¬ x.Owns c) {n i : Nat} (hn : x.asize = n) (hi : i < n) : c ≠ x.arr + i := by
  rintro rfl
  exact h ⟨Nat.le_add_right _ _, by omega⟩

/-- An allocated cell is not in free memory. -/
theorem Is.not_free {x : RA} {D : List Nat} {f : List Nat → α} {m : Buf α} (h : x.Is D f m) {q n c : Nat} (hf : Free m q n) (hc : x.Owns c) :
    ¬ (q ≤ c ∧ c < q + n) := by
  rintro ⟨h1, h2⟩
  obtain ⟨i, rfl⟩ : ∃ i, c = x.arr + i := ⟨c - x.arr, by have := hc.1; omega⟩
  obtain ⟨ix, h3, rfl⟩ := GT.surj (D.prod |> fun _ => (by have := hc.2; rw [h.asize] at this; omega : i < D.prod))
  have := h.has ix h3
  rw [hf _ h1 h2] at this
  cases this

/-- A loop that writes the whole array. -/
theorem all_run {x : RA} {D : List Nat} {f : List Nat → α} {m : Buf α} (h : x.Is D f m) (new : Nat → α) (step : Nat → Buf α → Res (Buf α))
    (hs : ∀ i, i < D.prod → ∀ m' : Buf α, (∀ c, (∀ j, j < D.prod → j ≠ i → c ≠ x.arr + j) → m' c = m c) →
      step i m' = m'.write (x.arr + i) (new i)) :
    ∃ m', loop x.asize m step = .ok m' ∧ x.Becomes D (fun ix => new (position D ix)) m m' := by
  rw [h.asize]
  obtain ⟨m', h1, h2, h3⟩ := loop_cells D.prod (fun i => x.arr + i) new step m (fun i _ j _ e => by omega)
    (fun i hi => by rw [h.at (new 0) hi]; rfl) hs
  refine ⟨m', h1, h.mk' fun ix hi => h2 _ (position_lt hi), fun c hc => h3 c fun i hi => not_owns hc h.asize hi⟩

/-- Loops over all indices that write each entry once. -/
theorem ix_run {x : RA} {D : List Nat} {f : List Nat → α} {m : Buf α} (h : x.Is D f m) (new : List Nat → α) (step : List Nat → Buf α → Res (Buf α))
    (hs : ∀ ix, InRange ix D → ∀ m' : Buf α, (∀ c, (∀ jx, InRange jx D → jx ≠ ix → c ≠ x.arr + position D jx) → m' c = m c) →
      step ix m' = m'.write (x.arr + position D ix) (new ix)) :
    ∃ m', nestLoop D m step = .ok m' ∧ x.Becomes D new m m' := by
  rw [nestLoop_eq]
  obtain ⟨m', h1, h2, h3⟩ := cells_run (allIndices D) (fun ix => x.arr + position D ix) new (fun m ix => step ix m) m
    (allIndices_nodup D)
    (fun i hi j hj e => by
      have := GT.pick (mem_allIndices.1 hi)
      rw [show position D i = position D j by omega, GT.pick (mem_allIndices.1 hj)] at this
      exact (Option.some.inj this).symm)
    (fun i hi => by rw [h.has i (mem_allIndices.1 hi)]; rfl)
    (fun i hi m' hm => hs i (mem_allIndices.1 hi) m' fun c hc => hm c fun j hj hne => hc j (mem_allIndices.1 hj) hne)
  refine ⟨m', h1, h.mk' fun ix hi => h2 ix (mem_allIndices.2 hi), fun c hc => h3 c fun ix hi => not_owns hc h.asize (position_lt (mem_allIndices.1 hi))⟩

theorem becomes_congr {x : RA} {D : List Nat} {f g : List Nat → α} {m m' : Buf α} (h : x.Becomes D f m m') (e : ∀ ix, InRange ix D → f ix = g ix) :
    x.Becomes D g m m' :=
  ⟨h.1.mk' fun ix hi => by rw [h.1.has ix hi, e ix hi], h.2⟩

/-- The tensor that `raw` makes, with its contents. -/
theorem raw_is {D : List Nat} (h : D ≠ []) (junk : Nat → α) (q : Nat) (m : Buf α) :
    (⟨q, D, rmStrides D, D.prod, cells D, cells D, -1, false⟩ : RA).Is D (fun ix => junk (q + position D ix)) (allocRaw junk m q (cells D)) :=
  ⟨h, rfl, (compact_rm D).symm, rfl, (cells_pos D).2, fun ix hi => raw_at _ _ ⟨Nat.le_add_right _ _, by
    have := position_lt hi; have := (cells_pos D).2; show q + _ < _; omega⟩⟩

/-- From a change of a new tensor to the new tensor. -/
theorem fresh_of {D : List Nat} {x : RA} {q : Nat} {f : List Nat → α} {junk : Nat → α} {m m' : Buf α} (hx : x.arr = q) (hv : x.isView = false)
    (h : x.Becomes D f (allocRaw junk m q (cells D)) m') : x.Fresh q D f m m' := by
  refine ⟨hx, hv, h.1, fun c hc => ?_⟩
  rw [h.2 c fun ho => hc ⟨hx ▸ ho.1, by have := ho.2; rw [h.1.asize, hx] at this; have := (cells_pos D).2; omega⟩, raw_off _ _ hc]

theorem Is.above {x : RA} {D : List Nat} {f : List Nat → α} {m : Buf α} (h : x.Is D f m) {n : Nat} (hn : n ≤ D.length) :
    x.above n = .ok (D.drop n).prod := by
  rw [RA.above]
  split
  · next h0 => rw [Res.get, h.strides', GT.strides_get (by omega), show n - 1 + 1 = n by omega]
  · next h0 => rw [show n = 0 by omega, List.drop_zero, h.asize]

theorem Is.stride {x : RA} {D : List Nat} {f : List Nat → α} {m : Buf α} (h : x.Is D f m) {n : Nat} (hn : n < D.length) :
    Res.get x.strides n = .ok (D.drop (n + 1)).prod := by
  rw [Res.get, h.strides', GT.strides_get hn]

theorem Is.offset {x : RA} {D : List Nat} {f : List Nat → α} {m : Buf α} (h : x.Is D f m) {ix : List Nat} (hi : InRange ix D) :
    x.offset ix = .ok (position D ix) := by
  have e := GT.dot_all (rmStrides D) ix 0 (by rw [rmStrides_length, hi.length])
  rw [RA.offset, h.strides', h.dims]
  rw [rmStrides_length] at e
  rw [e, Nat.zero_add, dot_rmStrides _ _ hi.length]

theorem loop_snoc {σ : Type} (n : Nat) (s : σ) (f : Nat → σ → Res σ) : loop (n + 1) s f = (loop n s f >>= fun t => f n t) := by
  unfold loop
  rw [List.range_succ, Res.forM_append]
  cases Res.forM (List.range n) s (fun s i => f i s) with
  | ok t => rw [Res.ok_bind, Res.ok_bind, Res.forM_cons]; cases f n t <;> rfl
  | throw => rfl
  | ub => rfl

/-! ### Sums over the array -/

theorem sum_run [AddCommMonoid α] (n : Nat) (m : Buf α) (g : Nat → α) (step : Nat → α → Res α) (h : ∀ i, i < n → ∀ t, step i t = .ok (t + g i)) :
    loop n (0 : α) step = .ok ((List.range n).map g).sum := by
  rw [loop_sum n 0 step g h]
  simp

/-- A sum over positions is a sum over entries. -/
theorem sum_flat [AddCommMonoid α] {β : Type} (D : List Nat) (f : List Nat → β) (d : β) (g : Nat → α) (G : List Nat → α)
    (h : ∀ ix, InRange ix D → g (position D ix) = G ix) : ((List.range D.prod).map g).sum = ((allIndices D).map G).sum := by
  rw [← map_position_allIndices, List.map_map]
  congr 1
  exact List.map_congr_left fun ix hi => h ix (mem_allIndices.1 hi)

/-! ### Two-level loops -/

theorem two_inj {S : Nat} {j k j' k' : Nat} (hk : k < S) (hk' : k' < S) (e : j * S + k = j' * S + k') : j = j' ∧ k = k' := by
  have h1 : (j * S + k) / S = j := by rw [Nat.mul_comm, Nat.mul_add_div (by omega), Nat.div_eq_of_lt hk, Nat.add_zero]
  have h2 : (j' * S + k') / S = j' := by rw [Nat.mul_comm, Nat.mul_add_div (by omega), Nat.div_eq_of_lt hk', Nat.add_zero]
  have : j = j' := by rw [← h1, e, h2]
  subst this
  exact ⟨rfl, by omega⟩

theorem two_lt {S N j k : Nat} (hj : j < N) (hk : k < S) : j * S + k < N * S := by
  have : (j + 1) * S ≤ N * S := Nat.mul_le_mul_right _ hj
  rw [Nat.add_mul] at this
  omega

/-- Runs of `W` cells, one in each of `N` runs of `S` cells, starting at `o`: `dst` is written from `src` by `step`. -/
theorem runs_core (N S W o R : Nat) (ho : o + W ≤ S) (m : Buf α) (F : Nat → α) (new : Nat → Nat → α) (step : Nat → Nat → Buf α → Res (Buf α))
    (hF : ∀ c, c < N * S → m (R + c) = some (F c))
    (hs : ∀ j, j < N → ∀ i, i < W → ∀ m' : Buf α,
      (∀ c, (∀ k, k < N * S → k ≠ j * S + (o + i) → c ≠ R + k) → m' c = m c) → step j i m' = m'.write (R + (j * S + (o + i))) (new j i)) :
    ∃ m', loop N m (fun j m => loop W m fun i m => step j i m) = .ok m' ∧
      (∀ j, j < N → ∀ k, k < S → m' (R + (j * S + k)) = some (if o ≤ k ∧ k < o + W then new j (k - o) else F (j * S + k))) ∧
      ∀ c, (∀ k, k < N * S → c ≠ R + k) → m' c = m c := by
  obtain ⟨m', h1, h2, h3⟩ := loop2_cells N W (fun j i => R + (j * S + (o + i))) new step m
    (by
      intro j _ i hi j' _ i' hi' e
      obtain ⟨a, b⟩ := two_inj (S := S) (j := j) (k := o + i) (j' := j') (k' := o + i') (by omega) (by omega) (by omega)
      exact ⟨a, by omega⟩)
    (by intro j hj i hi; rw [hF _ (two_lt hj (by omega))]; rfl)
    (by
      intro j hj i hi m' hm'
      refine hs j hj i hi m' fun c hc => hm' c fun j' hj' i' hi' hne => hc _ (two_lt hj' (by omega)) fun e => hne ?_
      obtain ⟨a, b⟩ := two_inj (S := S) (j := j') (k := o + i') (j' := j) (k' := o + i) (by omega) (by omega) e
      exact ⟨a, by omega⟩)
  refine ⟨m', h1, ?_, ?_⟩
  · intro j hj k hk
    by_cases c : o ≤ k ∧ k < o + W
    · rw [if_pos c]
      have := h2 j hj (k - o) (by omega)
      rw [show o + (k - o) = k by omega] at this
      exact this
    · rw [if_neg c, h3 _ fun j' hj' i' hi' e => c ?_, hF _ (two_lt hj hk)]
      obtain ⟨a, b⟩ := two_inj (S := S) (j := j) (k := k) (j' := j') (k' := o + i') (by omega) (by omega) (by omega)
      omega
  · intro c hc
    exact h3 c fun j hj i hi => hc _ (two_lt hj (by omega))

/-! ### Splitting an index at an axis -/

theorem split_axis {D : List Nat} {n : Nat} (h : n < D.length) : D = D.take n ++ D.getD n 0 :: D.drop (n + 1) := by
  rw [List.getD_eq_getElem _ _ h, List.cons_getElem_drop_succ, List.take_append_drop]

theorem pos_axis {A B ia ib : List Nat} {d k : Nat} (h : ia.length = A.length) :
    position (A ++ d :: B) (ia ++ k :: ib) = position A ia * (d * B.prod) + (k * B.prod + position B ib) := by
  rw [GT.position_app h, List.prod_cons]
  rfl

theorem range_axis {A B ix : List Nat} {d : Nat} (h : InRange ix (A ++ d :: B)) :
    ∃ ia k ib, ix = ia ++ k :: ib ∧ InRange ia A ∧ k < d ∧ InRange ib B ∧ ia.length = A.length := by
  obtain ⟨h1, h2⟩ := GT.inRange_split h
  generalize hw : ix.drop A.length = w at h2
  cases h2 with
  | @cons k _ ib _ hk hb => exact ⟨ix.take A.length, k, ib, by rw [← hw, List.take_append_drop], h1, hk, hb, h1.length⟩

theorem set_axis (ia ib : List Nat) (k l : Nat) : (ia ++ k :: ib).set ia.length l = ia ++ l :: ib := by
  rw [List.set_append_right _ _ (Nat.le_refl _), Nat.sub_self]; rfl

theorem getD_axis (ia ib : List Nat) (k : Nat) : (ia ++ k :: ib).getD ia.length 0 = k := by
  rw [List.getD_append_right _ _ _ _ (Nat.le_refl _), Nat.sub_self]; rfl

theorem insert_axis (ia ib : List Nat) (k : Nat) : (ia ++ ib).insertIdx ia.length k = ia ++ k :: ib := by
  induction ia with
  | nil => simp
  | cons a ia ih => simp [ih]

theorem erase_axis (ia ib : List Nat) (k : Nat) : (ia ++ k :: ib).eraseIdx ia.length = ia ++ ib := by
  rw [List.eraseIdx_append_of_length_le (Nat.le_refl _), Nat.sub_self]; rfl

end RA

end Cnine
