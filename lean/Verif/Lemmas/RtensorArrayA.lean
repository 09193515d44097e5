import Verif.Spec.RtensorArrayA
import Verif.Props.RtensorAProd

/-!
# Lemmas for arrays of tensors of the old backend
-/

namespace Cnine

variable {α : Type}

open RA

namespace RAA

/-- The tensor number `p`. -/
def cellAt (X : RAA) (p : Nat) : RA := ⟨X.base.arr + p * X.cellstride, X.cdims, X.cstrides, X.asize, 2 * X.asize, X.asize, X.nbu, true⟩

theorem cell_eq {X : RAA} {k : Nat} (h : X.k = some k) (p : Nat) : X.cell p = .ok (X.cellAt p) := by
  unfold cell; rw [h]; rfl

theorem Is.cellIs {X : RAA} {A D : List Nat} {f : List Nat → List Nat → α} {m : Buf α} (h : X.Is A D f m) {ia : List Nat} (hi : InRange ia A) :
    (X.cellAt (position A ia)).Is D (f ia) m := by
  refine ⟨h.neD, h.cdims, h.cstrides, h.asize, ?_, fun id hd => ?_⟩
  · show D.prod ≤ 2 * X.asize
    rw [h.asize]; omega
  · show m (X.base.arr + position A ia * X.cellstride + position D id) = _
    rw [h.cellstride, Nat.add_assoc, h.has ia id hi hd]

theorem Is.mk' {X : RAA} {A D : List Nat} {f g : List Nat → List Nat → α} {m m' : Buf α} (h : X.Is A D f m) (hp : ∀ c, c < A.prod * cells D → (m' (X.base.arr + c)).isSome)
    (hg : ∀ ia id, InRange ia A → InRange id D → m' (X.base.arr + (position A ia * cells D + position D id)) = some (g ia id)) : X.Is A D g m' :=
  { h with pad := hp, has := hg }

theorem Is.owns {X : RAA} {A D : List Nat} {f : List Nat → List Nat → α} {m : Buf α} (h : X.Is A D f m) {c : Nat} (hc : c < A.prod * cells D) : X.Owns (X.base.arr + c) :=
  ⟨Nat.le_add_right _ _, by rw [h.total]; omega⟩

theorem lt_of {A D ia id : List Nat} (h : InRange ia A) (h' : InRange id D) : position A ia * cells D + position D id < A.prod * cells D :=
  GT.pad_lt (cells_pos D).2 h h'

theorem Is.keep {X : RAA} {A D : List Nat} {f : List Nat → List Nat → α} {m m' : Buf α} (h : X.Is A D f m) (hm : ∀ c, X.Owns c → m' c = m c) : X.Is A D f m' :=
  h.mk' (fun c hc => by rw [hm _ (h.owns hc)]; exact h.pad c hc) fun ia id a b => by rw [hm _ (h.owns (lt_of a b)), h.has ia id a b]

theorem becomes_congr {X : RAA} {A D : List Nat} {f g : List Nat → List Nat → α} {m m' : Buf α} (h : X.Becomes A D f m m')
    (e : ∀ ia id, InRange ia A → InRange id D → f ia id = g ia id) : X.Becomes A D g m m' :=
  ⟨h.1.mk' h.1.pad fun ia id a b => by rw [h.1.has ia id a b, e ia id a b], h.2⟩

/-- The cells of a tensor are cells of the array. -/
theorem Is.cellOwns {X : RAA} {A D : List Nat} {f : List Nat → List Nat → α} {m : Buf α} (h : X.Is A D f m) {p : Nat} (hp : p < A.prod) {c : Nat}
    (ho : (X.cellAt p).Owns c) : X.Owns c := by
  obtain ⟨h1, h2⟩ := ho
  have e1 : X.base.arr + p * cells D ≤ c := by rw [← h.cellstride]; exact h1
  have e2 : c < X.base.arr + p * cells D + D.prod := by
    have : c < X.base.arr + p * X.cellstride + X.asize := h2
    rwa [h.cellstride, h.asize] at this
  have e3 := (cells_pos D).2
  have e4 : (p + 1) * cells D ≤ A.prod * cells D := Nat.mul_le_mul_right _ hp
  rw [Nat.add_mul] at e4
  refine ⟨by omega, ?_⟩
  rw [h.total]; omega

/-- Different tensors share no cell. -/
theorem Is.cellApart {X : RAA} {A D : List Nat} {f : List Nat → List Nat → α} {m : Buf α} (h : X.Is A D f m) {p r : Nat} (hn : p ≠ r) : (X.cellAt p).Apart (X.cellAt r) := by
  rintro c ⟨h1, h2⟩ ⟨h3, h4⟩
  have e1 : X.base.arr + p * cells D ≤ c := by rw [← h.cellstride]; exact h1
  have e2 : c < X.base.arr + p * cells D + D.prod := by
    have : c < X.base.arr + p * X.cellstride + X.asize := h2
    rwa [h.cellstride, h.asize] at this
  have e3 : X.base.arr + r * cells D ≤ c := by rw [← h.cellstride]; exact h3
  have e4 : c < X.base.arr + r * cells D + D.prod := by
    have : c < X.base.arr + r * X.cellstride + X.asize := h4
    rwa [h.cellstride, h.asize] at this
  have e5 := (cells_pos D).2
  rcases Nat.lt_or_gt_of_ne hn with l | l
  · have := Nat.mul_le_mul_right (cells D) l
    rw [Nat.succ_mul] at this
    omega
  · have := Nat.mul_le_mul_right (cells D) l
    rw [Nat.succ_mul] at this
    omega

/-- A loop that deals with one tensor in each step. -/
theorem cells_core {X : RAA} {A D : List Nat} {f : List Nat → List Nat → α} {m : Buf α} (h : X.Is A D f m) (step : Nat → Buf α → Res (Buf α)) (new : List Nat → List Nat → α)
    (hs : ∀ ia, InRange ia A → ∀ m', (X.cellAt (position A ia)).Is D (f ia) m' → (∀ c, ¬ X.Owns c → m' c = m c) →
      ∃ m'', step (position A ia) m' = .ok m'' ∧ (X.cellAt (position A ia)).Becomes D (new ia) m' m'') :
    ∃ m', loop A.prod m step = .ok m' ∧ X.Becomes A D new m m' := by
  have arr : ∀ p, (X.cellAt p).arr = X.base.arr + p * cells D := fun p => by rw [← h.cellstride]; rfl
  obtain ⟨m', h1, h2, h3⟩ := forM_regions (List.range A.prod) (fun m p => step p m) (fun p c => (X.cellAt p).Owns c)
    (fun p c => some (new (nth A p) (nth D (c - (X.base.arr + p * cells D))))) m List.nodup_range (fun p _ r _ hn c h1 h2 => h.cellApart hn c h1 h2)
    (by
      intro p hp m' hm
      obtain ⟨a1, a2⟩ := nth_range (List.mem_range.1 hp)
      have hc := h.cellIs a1
      rw [a2] at hc
      obtain ⟨m'', e1, e2⟩ := hs (nth A p) a1 m' (by
          rw [a2]
          exact hc.keep fun c ho => hm c fun r _ hr ho' => h.cellApart hr c ho' ho)
        fun c hc => hm c fun r hr _ ho => hc (h.cellOwns (List.mem_range.1 hr) ho)
      rw [a2] at e1 e2
      refine ⟨m'', e1, fun c ho => ?_, e2.2⟩
      obtain ⟨o1, o2⟩ := ho
      rw [arr] at o1 o2
      obtain ⟨id, d1, d2⟩ := GT.surj (show c - (X.base.arr + p * cells D) < D.prod by
        have : (X.cellAt p).asize = D.prod := h.asize
        rw [this] at o2; omega)
      have := e2.1.has id d1
      rw [arr, d2, show X.base.arr + p * cells D + (c - (X.base.arr + p * cells D)) = c by omega] at this
      rw [this, ← d2, nth_pos d1])
  refine ⟨m', h1, h.mk' (fun c hc => ?_) fun ia id a b => ?_, fun c hc => h3 c fun p hp ho => hc (h.cellOwns (List.mem_range.1 hp) ho)⟩
  · by_cases g : ∃ p ∈ List.range A.prod, (X.cellAt p).Owns (X.base.arr + c)
    · obtain ⟨p, g1, g2⟩ := g
      rw [h2 p g1 _ g2]; rfl
    · rw [h3 _ fun p hp ho => g ⟨p, hp, ho⟩]; exact h.pad c hc
  · have hp := List.mem_range.2 (position_lt a)
    have ho := (h.cellIs a).owns (position_lt b)
    rw [arr] at ho
    rw [← Nat.add_assoc, h2 _ hp _ ho, nth_pos a, Nat.add_sub_cancel_left, nth_pos b]

/-! ### The array as one tensor -/

/-- The array with the room between tensors, as one tensor. -/
def flatT (X : RAA) (A D : List Nat) : RA :=
  ⟨X.base.arr, A ++ [cells D], rmStrides (A ++ [cells D]), A.prod * cells D, A.prod * cells D, A.prod * cells D, -1, true⟩

theorem flat_prod (A D : List Nat) : (A ++ [cells D]).prod = A.prod * cells D := by simp

theorem flat_pos' {A D ia id : List Nat} (h : InRange ia A) : position (A ++ [cells D]) (ia ++ [position D id]) = position A ia * cells D + position D id := by
  rw [GT.position_app h.length]; simp [position]

theorem flat_range {A D ia id : List Nat} (h : InRange ia A) (h' : InRange id D) : InRange (ia ++ [position D id]) (A ++ [cells D]) :=
  GT.inRange_app h (.cons (Nat.lt_of_lt_of_le (position_lt h') (cells_pos D).2) .nil)

theorem Is.flat {X : RAA} {A D : List Nat} {f : List Nat → List Nat → α} {m : Buf α} (h : X.Is A D f m) :
    ∃ g, (X.flatT A D).Is (A ++ [cells D]) g m ∧ ∀ ia id, InRange ia A → InRange id D → g (ia ++ [position D id]) = f ia id := by
  refine ⟨fun ix => (m (X.base.arr + position (A ++ [cells D]) ix)).getD (f [] []), ⟨by simp, rfl, (compact_rm _).symm, (flat_prod A D).symm, (flat_prod A D).le, fun ix hi => ?_⟩,
    fun ia id a b => ?_⟩
  · have hl := position_lt hi
    rw [flat_prod] at hl
    obtain ⟨v, hv⟩ := Option.isSome_iff_exists.1 (h.pad _ hl)
    show m (X.base.arr + _) = _
    rw [hv]; rfl
  · show (m _).getD _ = _
    rw [flat_pos' a, h.has ia id a b]; rfl

theorem Is.unflat {X : RAA} {A D : List Nat} {f : List Nat → List Nat → α} {m m' : Buf α} (h : X.Is A D f m) {g : List Nat → α}
    (hb : (X.flatT A D).Becomes (A ++ [cells D]) g m m') : X.Becomes A D (fun ia id => g (ia ++ [position D id])) m m' := by
  refine ⟨h.mk' (fun c hc => ?_) fun ia id a b => ?_, fun c hc => hb.2 c fun ho => hc ⟨ho.1, by rw [h.total]; exact ho.2⟩⟩
  · have : m' (X.base.arr + c) = _ := hb.1.at (g []) (by rw [flat_prod]; exact hc)
    rw [this]; rfl
  · have := hb.1.has _ (flat_range a b)
    rw [flat_pos' a] at this
    exact this

theorem Is.flatOwns {X : RAA} {A D : List Nat} {f : List Nat → List Nat → α} {m : Buf α} (h : X.Is A D f m) (c : Nat) : (X.flatT A D).Owns c ↔ X.Owns c := by
  constructor
  · exact fun ho => ⟨ho.1, by rw [h.total]; exact ho.2⟩
  · exact fun ho => ⟨ho.1, by have := ho.2; rw [h.total] at this; exact this⟩

/-! ### Indices -/

theorem ix_ok (aix : List Nat) (hi lo : List Nat) (hl : aix.length = hi.length) : atIx aix (hi ++ lo) = .ok (dot hi aix) := by
  have key : ∀ n, n ≤ aix.length → (loop n 0 fun i t => do
      let j ← Res.get aix i
      let s ← Res.get (hi ++ lo) i
      .ok (t + j * s)) = .ok (dot (hi.take n) (aix.take n)) := by
    intro n
    induction n with
    | zero => intro _; rfl
    | succ n ih =>
      intro hn
      have e1 : aix[n]? = some aix[n] := List.getElem?_eq_getElem (by omega)
      have e2 : (hi ++ lo)[n]? = some hi[n] := by rw [List.getElem?_append_left (by omega), List.getElem?_eq_getElem (by omega)]
      rw [RA.loop_snoc, ih (by omega), Res.ok_bind, Res.get, e1, Res.ok_bind, Res.get, e2, Res.ok_bind]
      rw [List.take_succ_eq_append_getElem (by omega), List.take_succ_eq_append_getElem (by omega), dot_append _ _ _ _ (by simp; omega)]
      simp [dot, Nat.mul_comm]
  have := key aix.length (Nat.le_refl _)
  rw [List.take_length, hl, List.take_length, ← hl] at this
  rw [atIx, decide_eq_true (by rw [List.length_append]; omega), Res.assrt_true, Res.ok_bind, this]

theorem high_eq (A : List Nat) (c : Nat) : (A.tails.tail.map fun l => l.prod * c) = rmStridesFrom c A := by
  rw [GT.strides_from, ← compact_rm, List.map_map]
  apply List.map_congr_left
  intro l _
  exact Nat.mul_comm _ _

theorem Is.ixBase {X : RAA} {A D : List Nat} {f : List Nat → List Nat → α} {m : Buf α} (h : X.Is A D f m) {ia : List Nat} (hi : InRange ia A) :
    atIx ia X.base.strides = .ok (position A ia * cells D) := by
  rw [h.strides, high_eq, ix_ok _ _ _ (by rw [GT.strides_from, List.length_map, rmStrides_length, hi.length]), dot_rmStridesFrom _ _ _ hi.length, Nat.mul_comm]

theorem Is.ixArr {X : RAA} {A D : List Nat} {f : List Nat → List Nat → α} {m : Buf α} (h : X.Is A D f m) {ia : List Nat} (hi : InRange ia A) :
    atIx ia X.astrides = .ok (position A ia) := by
  have e : A.tails.tail.map List.prod = rmStridesFrom 1 A := by
    rw [← high_eq]
    apply List.map_congr_left
    intro l _
    exact (Nat.mul_one _).symm
  have := ix_ok ia (rmStridesFrom 1 A) [] (by rw [GT.strides_from, List.length_map, rmStrides_length, hi.length])
  rw [List.append_nil] at this
  rw [h.astrides, e, this, dot_rmStridesFrom _ _ _ hi.length, Nat.one_mul]

/-- The stride of an axis of the array. -/
theorem Is.stride {X : RAA} {A D : List Nat} {f : List Nat → List Nat → α} {m : Buf α} (h : X.Is A D f m) {n : Nat} (hn : n < A.length) :
    Res.get X.base.strides n = .ok ((A.drop (n + 1)).prod * cells D) := by
  have : ((A.tails.tail.map fun l => l.prod * cells D) ++ D.tails.tail.map List.prod)[n]? = some ((A.drop (n + 1)).prod * cells D) := by
    rw [List.getElem?_append_left (by simp; omega), List.getElem?_map, List.getElem?_tail]
    have : A.tails[n + 1]? = some (A.drop (n + 1)) := by
      rw [List.getElem?_eq_getElem (by simp; omega), List.getElem_tails]
    rw [this]; rfl
  rw [h.strides, Res.get, this]

end RAA

end Cnine
