import Verif.Props.CtensorB2
import Verif.Spec.CtensorArrayB

/-!
# C608–C612: arrays of complex tensors of backend B
-/

namespace Cnine

variable {α : Type}

namespace CBA

open CB (mk0 noalloc_ok)
open RA (Free)

variable {X : CBA} {A C : List Nat} {F : List Nat → List Nat → Cx α} {m : Buf α}

theorem Is.cdims (h : X.Is A C F m) : X.cdims = C := by
  rw [CBA.cdims, h.tensor.dims, h.ak, List.drop_left]

theorem Is.adims (h : X.Is A C F m) : X.adims = A := by
  rw [CBA.adims, h.tensor.dims, h.ak, List.take_left]

/-- The place of a tensor in the array. -/
theorem Is.ix (h : X.Is A C F m) {ia : List Nat} (hi : InRange ia A) : RAA.atIx ia X.T.strides = .ok (2 * (position A ia * C.prod)) := by
  have e : X.T.strides = (A.tails.tail.map fun l => l.prod * (C.prod * 2)) ++ (C.tails.tail.map fun l => l.prod * 2) := by
    rw [h.tensor.strides]
    have : ∀ A : List Nat, (A ++ C).tails.tail = (A.tails.tail.map (· ++ C)) ++ C.tails.tail := by
      intro A
      induction A with
      | nil => simp
      | cons a A ih =>
        rw [List.cons_append, List.tails_cons, List.tail_cons, List.tails_cons, List.tail_cons]
        have h1 : ∀ l : List Nat, l.tails = l :: l.tails.tail := fun l => by cases l <;> simp
        rw [h1 (A ++ C), ih, h1 A, List.map_cons, List.tail_cons, List.cons_append]
    rw [this, List.map_append, List.map_map]
    congr 1
    apply List.map_congr_left
    intro l _
    simp only [Function.comp, List.prod_append]
    ring
  rw [e, RAA.high_eq, RAA.ix_ok _ _ _ (by rw [rmStridesFrom_length, hi.length]), dot_rmStridesFrom _ _ _ hi.length]
  congr 1
  ring

/-- The tensor at a place, as a view. -/
def part (X : CBA) (C : List Nat) (p : Nat) : CB := mk0 (X.T.arr + 2 * (p * C.prod)) C true

theorem Is.partIs (h : X.Is A C F m) {ia : List Nat} (hi : InRange ia A) : (X.part C (position A ia)).Is C (F ia) m := by
  refine CB.mk0_is h.ne _ _ fun ic hc => ?_
  have := h.tensor.has (ia ++ ic) (GT.inRange_app hi hc)
  rw [GT.position_app hi.length] at this
  rw [List.take_left' hi.length, List.drop_left' hi.length] at this
  rw [show X.T.arr + 2 * (position A ia * C.prod) + 2 * position C ic = X.T.arr + 2 * (position A ia * C.prod + position C ic) by ring,
    show X.T.arr + 2 * (position A ia * C.prod) + (2 * position C ic + 1) = X.T.arr + (2 * (position A ia * C.prod + position C ic) + 1) by ring]
  exact this

/-- The cells of a tensor of the array belong to the array. -/
theorem Is.part_owns (h : X.Is A C F m) {p c : Nat} (hp : p < A.prod) (hc : (X.part C p).Owns c) : X.T.Owns c := by
  obtain ⟨h1, h2⟩ := hc
  have h1 : X.T.arr + 2 * (p * C.prod) ≤ c := h1
  have h2 : c < X.T.arr + 2 * (p * C.prod) + 2 * C.prod := h2
  have h3 : (p + 1) * C.prod ≤ A.prod * C.prod := Nat.mul_le_mul_right _ hp
  have h4 : (p + 1) * C.prod = p * C.prod + C.prod := by ring
  refine ⟨by omega, ?_⟩
  rw [h.tensor.asize, List.prod_append]
  omega

theorem part_apart {p q : Nat} (h : p ≠ q) : (X.part C p).Apart (X.part C q) := by
  rintro c ⟨h1, h2⟩ ⟨h3, h4⟩
  have h1 : X.T.arr + 2 * (p * C.prod) ≤ c := h1
  have h2 : c < X.T.arr + 2 * (p * C.prod) + 2 * C.prod := h2
  have h3 : X.T.arr + 2 * (q * C.prod) ≤ c := h3
  have h4 : c < X.T.arr + 2 * (q * C.prod) + 2 * C.prod := h4
  have k1 : (p + 1) * C.prod = p * C.prod + C.prod := by ring
  have k2 : (q + 1) * C.prod = q * C.prod + C.prod := by ring
  rcases Nat.lt_or_gt_of_ne h with h | h
  · have := Nat.mul_le_mul_right C.prod (show p + 1 ≤ q from h)
    omega
  · have := Nat.mul_le_mul_right C.prod (show q + 1 ≤ p from h)
    omega

/-- Arrays are the tensors in their places. -/
theorem Is.of_parts {m' : Buf α} (h : X.Is A C F m) {G : List Nat → List Nat → Cx α}
    (hp : ∀ ia, InRange ia A → (X.part C (position A ia)).Is C (G ia) m') : X.Is A C G m' := by
  refine ⟨h.ne, h.tensor.mk' fun ix hi => ?_, h.ak⟩
  obtain ⟨h1, h2⟩ := GT.inRange_split hi
  have := (hp _ h1).has _ h2
  have e : position (A ++ C) ix = position A (ix.take A.length) * C.prod + position C (ix.drop A.length) := by
    rw [← GT.position_app h1.length, List.take_append_drop]
  rw [e]
  have k1 : (X.part C (position A (ix.take A.length))).arr + 2 * position C (ix.drop A.length) =
      X.T.arr + 2 * (position A (ix.take A.length) * C.prod + position C (ix.drop A.length)) := by
    show X.T.arr + 2 * (_ * C.prod) + _ = _
    ring
  have k2 : (X.part C (position A (ix.take A.length))).arr + (2 * position C (ix.drop A.length) + 1) =
      X.T.arr + (2 * (position A (ix.take A.length) * C.prod + position C (ix.drop A.length)) + 1) := by
    show X.T.arr + 2 * (_ * C.prod) + _ = _
    ring
  rw [k1, k2] at this
  exact this

/-- A change of one tensor of the array. -/
theorem Is.one {m' : Buf α} (h : X.Is A C F m) {ia : List Nat} (hi : InRange ia A) {g : List Nat → Cx α} (hb : (X.part C (position A ia)).Becomes C g m m') :
    X.Becomes A C (fun ja => if ja = ia then g else F ja) m m' := by
  refine ⟨h.of_parts fun ja hj => ?_, fun c hc => hb.2 c fun k => hc (h.part_owns (position_lt hi) k)⟩
  by_cases e : ja = ia
  · subst e
    rw [if_pos rfl]
    exact hb.1
  · rw [if_neg e]
    exact (h.partIs hj).stays hb (part_apart fun k => e (position_inj hj hi k.symm))

/-! ### C608: construction, copies, views, entries -/

theorem is_of {T : CB} {G : List Nat → Cx α} (hC : C ≠ []) (h : T.Is (A ++ C) G m) : (⟨T, A.length⟩ : CBA).Is A C (fun ia ic => G (ia ++ ic)) m :=
  ⟨hC, h.mk' fun ix hi => by rw [List.take_append_drop]; exact h.has ix hi, rfl⟩

theorem C608_raw (hC : C ≠ []) (junk : Nat → α) (q : Nat) (m : Buf α) :
    ∃ (X : CBA) (m' : Buf α) (F : List Nat → List Nat → Cx α), raw junk q A C m = .ok (X, m') ∧ X.Is A C F m' ∧ X.adims = A ∧ X.cdims = C ∧ X.T.arr = q ∧
      ∀ c, ¬ (q ≤ c ∧ c < q + 2 * (A ++ C).prod) → m' c = m c := by
  obtain ⟨T, m', h1, h2⟩ := CB.C586_raw_partial (D := A ++ C) (by simp [hC]) junk q m
  have hX := is_of hC h2.2.2.1
  exact ⟨_, m', _, by rw [raw, h1]; rfl, hX, hX.adims, hX.cdims, h2.1, h2.2.2.2⟩

theorem C608_filled (hC : C ≠ []) (f : α) (junk : Nat → α) (q : Nat) (m : Buf α) :
    ∃ (X : CBA) (m' : Buf α), filled (fun _ => f) junk q A C m = .ok (X, m') ∧ X.Is A C (fun _ _ => ⟨f, f⟩) m' ∧ X.T.arr = q ∧
      ∀ c, ¬ (q ≤ c ∧ c < q + 2 * (A ++ C).prod) → m' c = m c := by
  obtain ⟨T, m', h1, h2⟩ := CB.C586_filled_partial (D := A ++ C) (by simp [hC]) (fun _ => f) junk q m
  exact ⟨_, m', by rw [filled, h1]; rfl, is_of hC h2.2.2.1, h2.1, h2.2.2.2⟩

theorem C608_sequential [Zero α] [NatCast α] (hC : C ≠ []) (junk : Nat → α) (q : Nat) (m : Buf α) :
    ∃ (X : CBA) (m' : Buf α), sequential junk q A C m = .ok (X, m') ∧ X.Is A C (fun ia ic => ⟨(position (A ++ C) (ia ++ ic) : α), 0⟩) m' ∧ X.T.arr = q ∧
      ∀ c, ¬ (q ≤ c ∧ c < q + 2 * (A ++ C).prod) → m' c = m c := by
  obtain ⟨T, m', h1, h2⟩ := CB.C586_sequential_partial (D := A ++ C) (by simp [hC]) junk q m
  exact ⟨_, m', by rw [sequential, h1]; rfl, is_of hC h2.2.2.1, h2.1, h2.2.2.2⟩

/-- An array from a tensor, with the number of array axes given from the front or from the back. -/
theorem C608_ofTensor {x : CB} {G : List Nat → Cx α} (hC : C ≠ []) (h : x.Is (A ++ C) G m) (junk : Nat → α) (q : Nat) (hf : Free m q (2 * (A ++ C).prod)) {k : Int}
    (hk : k = A.length ∨ k = -C.length) : ∃ (X : CBA) (m' : Buf α), ofTensor junk q x k m = .ok (X, m') ∧ X.Is A C (fun ia ic => G (ia ++ ic)) m' ∧ x.Is (A ++ C) G m' := by
  obtain ⟨T, m', h1, h2, h3, _⟩ := CB.C587_copy_partial h junk q hf
  refine ⟨⟨T, A.length⟩, m', ?_, is_of hC h2.2.2.1, h3⟩
  have e : (if k < 0 then (x.dims.length : Int) + k else k).toNat = A.length := by
    have hl : 0 < C.length := List.length_pos_of_ne_nil hC
    rw [h.dims, List.length_append]
    rcases hk with rfl | rfl
    · rw [if_neg (by omega)]; omega
    · rw [if_pos (by omega)]; omega
  rw [ofTensor, h1, Res.ok_bind]
  show Res.ok (_, _) = _
  rw [e]

theorem C608_copy (h : X.Is A C F m) (junk : Nat → α) (q : Nat) (hf : Free m q (2 * (A ++ C).prod)) :
    ∃ (Y : CBA) (m' : Buf α), X.copy junk q m = .ok (Y, m') ∧ Y.Is A C F m' ∧ X.Is A C F m' ∧ Y.T.Apart X.T := by
  obtain ⟨T, m', h1, h2, h3, h4⟩ := CB.C587_copy_partial h.tensor junk q hf
  exact ⟨⟨T, X.ak⟩, m', by rw [copy, h1]; rfl, ⟨h.ne, h2.2.2.1, h.ak⟩, ⟨h.ne, h3, h.ak⟩, h4⟩

theorem C608_view (h : X.Is A C F m) : ∃ Y : CBA, X.view = .ok Y ∧ Y.Is A C F m ∧ Y.T.arr = X.T.arr := by
  obtain ⟨T, h1, h2, h3, _⟩ := CB.C590_view_partial h.tensor
  exact ⟨⟨T, X.ak⟩, by rw [view, h1]; rfl, ⟨h.ne, h2, h.ak⟩, h3⟩

/-- Other array sizes, with the tensors in the same order. -/
theorem C608_shape (h : X.Is A C F m) {B : List Nat} (hB : B.prod = A.prod) : ∃ (Y : CBA) (G : List Nat → List Nat → Cx α), X.viewAsShape B = .ok Y ∧ Y.Is B C G m ∧ Y.T.arr = X.T.arr ∧
    ∀ ia ib, InRange ia A → InRange ib B → position A ia = position B ib → ∀ ic, InRange ic C → G ib ic = F ia ic := by
  have hne : B ++ C ≠ [] := by simp [h.ne]
  obtain ⟨T, G, h1, h2, h3, _, h5⟩ := CB.C590_shape_partial h.tensor (E := B ++ C) hne (by rw [List.prod_append, List.prod_append, hB])
  refine ⟨⟨T, B.length⟩, _, ?_, is_of h.ne h2, h3, fun ia ib ha hb e ic hc => ?_⟩
  · have h1 : CB.noalloc X.T.arr (B ++ C) true = .ok T := h1
    rw [viewAsShape, h.cdims, h1]; rfl
  · have := h5 _ _ (GT.inRange_app ha hc) (GT.inRange_app hb hc) (by rw [GT.position_app ha.length, GT.position_app hb.length, e])
    rw [List.take_left' ha.length, List.drop_left' ha.length] at this
    exact this

theorem C608_get (h : X.Is A C F m) {ia ic : List Nat} (ha : InRange ia A) (hc : InRange ic C) : X.get ia ic m = .ok (F ia ic) := by
  rw [get, CB.C589_get h.tensor (GT.inRange_app ha hc), List.take_left' ha.length, List.drop_left' ha.length]

theorem C608_set (h : X.Is A C F m) {ia ic : List Nat} (ha : InRange ia A) (hc : InRange ic C) (v : Cx α) :
    ∃ m', X.set ia ic v m = .ok m' ∧ X.Becomes A C (fun ja jc => if ja = ia ∧ jc = ic then v else F ja jc) m m' := by
  obtain ⟨m', h1, h2⟩ := CB.C589_set h.tensor (GT.inRange_app ha hc) v
  refine ⟨m', h1, ⟨h.ne, (CB.becomes_congr h2 fun ix hi => ?_).1, h.ak⟩, h2.2⟩
  obtain ⟨k1, k2⟩ := GT.inRange_split hi
  by_cases e : ix = ia ++ ic
  · subst e
    rw [if_pos rfl, if_pos ⟨List.take_left' ha.length, List.drop_left' ha.length⟩]
  · rw [if_neg e, if_neg]
    rintro ⟨rfl, rfl⟩
    exact e (List.take_append_drop _ _).symm

example : ∃ X m1 Y m2, sequential (fun _ => (9 : Int)) 0 [2] [2, 2] (fun _ => none) = .ok (X, m1) ∧ X.T.strides = [8, 4, 2] ∧ X.get [1] [0, 1] m1 = .ok ⟨5, 0⟩ ∧
    X.copy (fun _ => 9) 50 m1 = .ok (Y, m2) ∧ Y.get [1] [1, 1] m2 = .ok ⟨7, 0⟩ := ⟨_, _, _, _, rfl, rfl, rfl, rfl, rfl⟩

/-! ### C609: the tensors of the array, by index -/

theorem C609_cell (h : X.Is A C F m) {ia : List Nat} (hi : InRange ia A) :
    ∃ y, X.cell ia = .ok y ∧ y.Is C (F ia) m ∧ y.isView = true ∧ ∀ c, y.Owns c → X.T.Owns c :=
  ⟨X.part C (position A ia), by rw [cell, h.ix hi, Res.ok_bind, h.cdims, noalloc_ok h.ne]; rfl, h.partIs hi, rfl, fun _ hc => h.part_owns (position_lt hi) hc⟩

/-- The tensors at different places share no number. -/
theorem C609_apart (h : X.Is A C F m) {ia ja : List Nat} (hi : InRange ia A) (hj : InRange ja A) (hne : ia ≠ ja) {y z : CB} (hy : X.cell ia = .ok y) (hz : X.cell ja = .ok z) : y.Apart z := by
  rw [cell, h.ix hi, Res.ok_bind, h.cdims, noalloc_ok h.ne, Res.ok.injEq] at hy
  rw [cell, h.ix hj, Res.ok_bind, h.cdims, noalloc_ok h.ne, Res.ok.injEq] at hz
  subst hy hz
  exact part_apart (X := X) fun k => hne (position_inj hi hj k)

theorem C609_cell2 {a b i j : Nat} (h : X.Is [a, b] C F m) (hi : i < a) (hj : j < b) : ∃ y, X.cell2 i j = .ok y ∧ X.cell [i, j] = .ok y ∧ y.Is C (F [i, j]) m := by
  have hr : InRange [i, j] [a, b] := .cons hi (.cons hj .nil)
  have hs : X.T.strides = rmStridesFrom 2 (a :: b :: C) := h.tensor.strides'
  refine ⟨X.part C (position [a, b] [i, j]), ?_, by rw [cell, h.ix hr, Res.ok_bind, h.cdims, noalloc_ok h.ne]; rfl, h.partIs hr⟩
  rw [cell2, hs, rmStridesFrom_cons, rmStridesFrom_cons]
  show CB.noalloc _ X.cdims true = _
  rw [h.cdims, noalloc_ok h.ne, part]
  congr 2
  simp only [position, List.prod_cons, List.prod_nil]
  ring

theorem C609_copyCell (h : X.Is A C F m) {r : CB} {G : List Nat → Cx α} (hr : r.Is C G m) (ha : r.Apart X.T) {ia : List Nat} (hi : InRange ia A) :
    ∃ m', X.copyCellTo r ia m = .ok m' ∧ r.Becomes C (F ia) m m' ∧ X.Is A C F m' := by
  obtain ⟨m', h1, h2⟩ := CB.C592_set_partial hr (h.partIs hi) fun c hc k => ha c hc (h.part_owns (position_lt hi) k)
  exact ⟨m', by rw [copyCellTo, h.ix hi, Res.ok_bind]; exact h1, h2, h.ne, h.tensor.stays h2 ha, h.ak⟩

theorem C609_getCell (h : X.Is A C F m) (junk : Nat → α) (q : Nat) (hf : Free m q (2 * C.prod)) {ia : List Nat} (hi : InRange ia A) :
    ∃ y m', X.getCell junk q ia m = .ok (y, m') ∧ y.Fresh q C (F ia) m m' ∧ X.Is A C F m' := by
  have h0 : X.Is A C F (allocRaw junk m q (2 * C.prod)) := ⟨h.ne, h.tensor.old hf junk, h.ak⟩
  obtain ⟨m', h1, h2, h3⟩ := C609_copyCell h0 (CB.raw_is h.ne junk q false m) (h.tensor.apart_mk0 hf) hi
  refine ⟨mk0 q C false, m', ?_, CB.fresh_of h2, h3⟩
  rw [getCell, h.cdims, CB.raw_ok h.ne, Res.ok_bind]
  exact (congrArg (fun r : Res (Buf α) => r >>= fun m => Res.ok (mk0 q C false, m)) h1).trans rfl

theorem C609_addCell [Add α] (h : X.Is A C F m) {r : CB} {G : List Nat → Cx α} (hr : r.Is C G m) (ha : r.Apart X.T) {ia : List Nat} (hi : InRange ia A) :
    ∃ m', X.addCellTo r ia m = .ok m' ∧ r.Becomes C (fun ic => G ic + F ia ic) m m' ∧ X.Is A C F m' := by
  obtain ⟨m', h1, h2⟩ := CB.zipMem_ok (· + ·) hr (h.partIs hi) (.inl fun c hc k => ha c hc (h.part_owns (position_lt hi) k))
  exact ⟨m', by rw [addCellTo, h.ix hi, Res.ok_bind]; exact h1, h2, h.ne, h.tensor.stays h2 ha, h.ak⟩

theorem C609_setCell (h : X.Is A C F m) {x : CB} {G : List Nat → Cx α} (hx : x.Is C G m) (ha : X.T.Apart x) {ia : List Nat} (hi : InRange ia A) :
    ∃ m', X.setCell ia x m = .ok m' ∧ X.Becomes A C (fun ja => if ja = ia then G else F ja) m m' := by
  obtain ⟨m', h1, h2⟩ := CB.C592_set_partial (h.partIs hi) hx fun c hc k => ha c (h.part_owns (position_lt hi) hc) k
  refine ⟨m', ?_, h.one hi h2⟩
  rw [setCell, h.ix hi, Res.ok_bind, hx.memsize]
  exact h1

theorem C609_addToCell [Add α] (h : X.Is A C F m) {x : CB} {G : List Nat → Cx α} (hx : x.Is C G m) (ha : X.T.Apart x) {ia : List Nat} (hi : InRange ia A) :
    ∃ m', X.addToCell ia x m = .ok m' ∧ X.Becomes A C (fun ja jc => if ja = ia then F ia jc + G jc else F ja jc) m m' := by
  obtain ⟨m', h1, h2⟩ := CB.zipMem_ok (· + ·) (h.partIs hi) hx (.inl fun c hc k => ha c (h.part_owns (position_lt hi) hc) k)
  refine ⟨m', ?_, ?_⟩
  · rw [addToCell, h.ix hi, Res.ok_bind, hx.memsize]
    exact h1
  · have := h.one hi h2
    have e : (fun ja => if ja = ia then (fun ic => (⟨(F ia ic).re + (G ic).re, (F ia ic).im + (G ic).im⟩ : Cx α)) else F ja) =
        fun ja jc => if ja = ia then F ia jc + G jc else F ja jc := by
      funext ja jc
      split <;> rfl
    rw [← e]
    exact this

example : ∃ X m1 x m2 m3, sequential (fun _ => (9 : Int)) 0 [2] [2, 2] (fun _ => none) = .ok (X, m1) ∧ CB.sequential (fun _ => 9) 50 [2, 2] m1 = .ok (x, m2) ∧
    X.addToCell [1] x m2 = .ok m3 ∧ X.get [1] [1, 1] m3 = .ok ⟨10, 0⟩ ∧ X.get [0] [1, 1] m3 = .ok ⟨3, 0⟩ := ⟨_, _, _, _, _, rfl, rfl, rfl, rfl, rfl⟩

/-! ### C610: the tensors of the array, by number -/

theorem Is.stride (h : X.Is A C F m) : X.cellstride = .ok (2 * C.tail.prod) := by
  have hl : 0 < C.length := List.length_pos_of_ne_nil h.ne
  rw [cellstride, h.ak, h.tensor.strides', GT.strides_from, Res.get, List.getElem?_map, GT.strides_get (by rw [List.length_append]; omega)]
  show Res.ok (2 * ((A ++ C).drop (A.length + 1)).prod) = _
  rw [← List.drop_drop, List.drop_left, List.drop_one]

/-- When the first axis of the tensors has the size 1. -/
theorem C610_cell_partial {C : List Nat} (h : X.Is A (1 :: C) F m) {ia : List Nat} (hi : InRange ia A) :
    ∃ y, X.cellAt (position A ia) = .ok y ∧ X.cell ia = .ok y ∧ y.Is (1 :: C) (F ia) m := by
  refine ⟨X.part (1 :: C) (position A ia), ?_, by rw [cell, h.ix hi, Res.ok_bind, h.cdims, noalloc_ok h.ne]; rfl, h.partIs hi⟩
  rw [cellAt, h.stride, Res.ok_bind, h.cdims, noalloc_ok h.ne, part]
  congr 2
  rw [List.tail_cons, List.prod_cons]
  ring

theorem Is.number {C : List Nat} (_ : X.Is A (1 :: C) F m) (i : Nat) : X.T.arr + i * (2 * (1 :: C).tail.prod) = (X.part (1 :: C) i).arr := by
  show _ = X.T.arr + 2 * (i * (1 :: C).prod)
  rw [List.tail_cons, List.prod_cons]
  ring

theorem C610_copyCell_partial {C : List Nat} (h : X.Is A (1 :: C) F m) {r : CB} {G : List Nat → Cx α} (hr : r.Is (1 :: C) G m) (ha : r.Apart X.T) {ia : List Nat} (hi : InRange ia A) :
    ∃ m', X.copyCellToAt r (position A ia) m = .ok m' ∧ r.Becomes (1 :: C) (F ia) m m' ∧ X.Is A (1 :: C) F m' := by
  obtain ⟨m', h1, h2, h3⟩ := C609_copyCell h hr ha hi
  refine ⟨m', ?_, h2, h3⟩
  rw [copyCellToAt, h.stride, Res.ok_bind, h.number]
  rw [copyCellTo, h.ix hi, Res.ok_bind] at h1
  exact h1

theorem C610_addCell_partial [Add α] {C : List Nat} (h : X.Is A (1 :: C) F m) {r : CB} {G : List Nat → Cx α} (hr : r.Is (1 :: C) G m) (ha : r.Apart X.T) {ia : List Nat} (hi : InRange ia A) :
    ∃ m', X.addCellToAt r (position A ia) m = .ok m' ∧ r.Becomes (1 :: C) (fun ic => G ic + F ia ic) m m' ∧ X.Is A (1 :: C) F m' := by
  obtain ⟨m', h1, h2, h3⟩ := C609_addCell h hr ha hi
  refine ⟨m', ?_, h2, h3⟩
  rw [addCellToAt, h.stride, Res.ok_bind, h.number]
  rw [addCellTo, h.ix hi, Res.ok_bind] at h1
  exact h1

theorem C610_setCell_partial {C : List Nat} (h : X.Is A (1 :: C) F m) {x : CB} {G : List Nat → Cx α} (hx : x.Is (1 :: C) G m) (ha : X.T.Apart x) {ia : List Nat} (hi : InRange ia A) :
    ∃ m', X.setCellAt (position A ia) x m = .ok m' ∧ X.Becomes A (1 :: C) (fun ja => if ja = ia then G else F ja) m m' := by
  obtain ⟨m', h1, h2⟩ := C609_setCell h hx ha hi
  refine ⟨m', ?_, h2⟩
  rw [setCellAt, h.stride, Res.ok_bind, h.number]
  rw [setCell, h.ix hi, Res.ok_bind] at h1
  exact h1

theorem C610_addToCell_partial [Add α] {C : List Nat} (h : X.Is A (1 :: C) F m) {x : CB} {G : List Nat → Cx α} (hx : x.Is (1 :: C) G m) (ha : X.T.Apart x) {ia : List Nat} (hi : InRange ia A) :
    ∃ m', X.addToCellAt (position A ia) x m = .ok m' ∧ X.Becomes A (1 :: C) (fun ja jc => if ja = ia then F ia jc + G jc else F ja jc) m m' := by
  obtain ⟨m', h1, h2⟩ := C609_addToCell h hx ha hi
  refine ⟨m', ?_, h2⟩
  rw [addToCellAt, h.stride, Res.ok_bind, h.number]
  rw [addToCell, h.ix hi, Res.ok_bind] at h1
  exact h1

/-- Whenever the first axis of the tensors has another size, every tensor but the first is looked for at the wrong place. -/
theorem C610_cell_fails {c : Nat} {C : List Nat} (h : X.Is A (c :: C) F m) (hc : c ≠ 1) (hC : C.prod ≠ 0) {ia : List Nat} (hi : InRange ia A) (h0 : position A ia ≠ 0) :
    ∃ y z, X.cellAt (position A ia) = .ok y ∧ X.cell ia = .ok z ∧ y.arr ≠ z.arr := by
  refine ⟨_, X.part (c :: C) (position A ia), by rw [cellAt, h.stride, Res.ok_bind, h.cdims, noalloc_ok h.ne], by rw [cell, h.ix hi, Res.ok_bind, h.cdims, noalloc_ok h.ne]; rfl, ?_⟩
  show X.T.arr + position A ia * (2 * C.prod) ≠ X.T.arr + 2 * (position A ia * (c :: C).prod)
  rw [List.prod_cons]
  intro e
  have e1 : (position A ia * C.prod) * 1 = (position A ia * C.prod) * c := by
    have : position A ia * (2 * C.prod) = 2 * (position A ia * (c * C.prod)) := by omega
    have k1 : position A ia * (2 * C.prod) = 2 * (position A ia * C.prod) := by ring
    have k2 : position A ia * (c * C.prod) = (position A ia * C.prod) * c := by ring
    omega
  exact hc (Nat.eq_of_mul_eq_mul_left (Nat.pos_of_ne_zero (Nat.mul_ne_zero h0 hC)) e1).symm

/-- Two vectors of two numbers: 0, 1 and 2, 3. The second, taken by number, is 1, 2. Setting it changes the first. -/
theorem C610_witness_fails : ∃ X m1 y x m2 m3, sequential (fun _ => (9 : Int)) 0 [2] [2] (fun _ => none) = .ok (X, m1) ∧ X.cellAt 1 = .ok y ∧ y.get [0] m1 = .ok ⟨1, 0⟩ ∧
    y.get [1] m1 = .ok ⟨2, 0⟩ ∧ CB.zero (fun _ => 9) 50 [2] m1 = .ok (x, m2) ∧ X.setCellAt 1 x m2 = .ok m3 ∧ X.get [0] [1] m1 = .ok ⟨1, 0⟩ ∧ X.get [0] [1] m3 = .ok ⟨0, 0⟩ ∧
    X.get [1] [1] m3 = .ok ⟨3, 0⟩ := ⟨_, _, _, _, _, _, rfl, rfl, rfl, rfl, rfl, rfl, rfl, rfl, rfl⟩

example : ∃ X m1 y, sequential (fun _ => (9 : Int)) 0 [2] [1, 2] (fun _ => none) = .ok (X, m1) ∧ X.cellAt 1 = .ok y ∧ y.get [0, 1] m1 = .ok ⟨3, 0⟩ := ⟨_, _, _, rfl, rfl, rfl⟩

/-! ### C611: one tensor copied to every place -/

theorem C611_broadcast_partial {C : List Nat} (h : X.Is A (1 :: C) F m) {x : CB} {G : List Nat → Cx α} (hx : x.Is (1 :: C) G m) (ha : X.T.Apart x) :
    ∃ m', X.broadcastCopy x m = .ok m' ∧ X.Becomes A (1 :: C) (fun _ => G) m m' := by
  have run : ∀ n, n ≤ A.prod → ∃ m', loop n m (fun i m => stdCopy m x.arr x.memsize (X.T.arr + i * (2 * (1 :: C).tail.prod))) = .ok m' ∧
      X.Becomes A (1 :: C) (fun ja => if position A ja < n then G else F ja) m m' := by
    intro n
    induction n with
    | zero => exact fun _ => ⟨m, rfl, h.of_parts fun ia hi => h.partIs hi, fun _ _ => rfl⟩
    | succ n ih =>
      intro hn
      obtain ⟨m1, h1, h2, h3⟩ := ih (by omega)
      obtain ⟨ia, hi, hp⟩ := GT.surj (dims := A) (i := n) (by omega)
      have hx1 : x.Is (1 :: C) G m1 := hx.keep fun c hc => h3 c fun k => ha c k hc
      obtain ⟨m2, g1, g2⟩ := C610_setCell_partial h2 hx1 ha hi
      rw [setCellAt, h2.stride, Res.ok_bind, hp] at g1
      refine ⟨m2, by rw [RA.loop_snoc, h1, Res.ok_bind]; exact g1, h.of_parts fun ja hj => ?_, fun c hc => (g2.2 c hc).trans (h3 c hc)⟩
      have := g2.1.partIs hj
      by_cases e : ja = ia
      · subst e
        rw [if_pos rfl] at this
        rw [if_pos (by omega)]
        exact this
      · have hne : position A ja ≠ n := fun k => e (position_inj hj hi (k.trans hp.symm))
        rw [if_neg e] at this
        by_cases hlt : position A ja < n
        · rw [if_pos hlt] at this
          rw [if_pos (by omega)]
          exact this
        · rw [if_neg hlt] at this
          rw [if_neg (by omega)]
          exact this
  obtain ⟨m', h1, h2, h3⟩ := run A.prod le_rfl
  refine ⟨m', ?_, h.of_parts fun ia hi => ?_, h3⟩
  · rw [broadcastCopy, decide_eq_true (by rw [hx.dims, h.cdims]), Res.assrt_true, Res.ok_bind, h.stride, Res.ok_bind, aasize, h.adims]
    exact h1
  · have := h2.partIs hi
    rw [if_pos (position_lt hi)] at this
    exact this

/-- A tensor of other sizes is refused. -/
theorem C611_sizes_partial (h : X.Is A C F m) {x : CB} (hx : x.dims ≠ C) : X.broadcastCopy x m = .throw := by
  rw [broadcastCopy, decide_eq_false (by rw [h.cdims]; exact hx)]; rfl

/-- Two vectors of two numbers, and the vector 0, 1 copied to both: they become 0, 0 and 1, 3. -/
theorem C611_broadcast_fails : ∃ X m1 x m2 m3, sequential (fun _ => (9 : Int)) 0 [2] [2] (fun _ => none) = .ok (X, m1) ∧ CB.sequential (fun _ => 9) 50 [2] m1 = .ok (x, m2) ∧
    X.broadcastCopy x m2 = .ok m3 ∧ X.get [0] [1] m3 = .ok ⟨0, 0⟩ ∧ X.get [1] [0] m3 = .ok ⟨1, 0⟩ ∧ X.get [1] [1] m3 = .ok ⟨3, 0⟩ := ⟨_, _, _, _, _, rfl, rfl, rfl, rfl, rfl, rfl⟩

example : ∃ X m1 x m2 m3, sequential (fun _ => (9 : Int)) 0 [2] [1, 2] (fun _ => none) = .ok (X, m1) ∧ CB.sequential (fun _ => 9) 50 [1, 2] m1 = .ok (x, m2) ∧
    X.broadcastCopy x m2 = .ok m3 ∧ X.get [1] [0, 0] m3 = .ok ⟨0, 0⟩ ∧ X.get [1] [0, 1] m3 = .ok ⟨1, 0⟩ := ⟨_, _, _, _, _, rfl, rfl, rfl, rfl, rfl⟩

/-! ### C612: sums -/

theorem C612_plus_partial [Add α] {Y : CBA} {G : List Nat → List Nat → Cx α} (hX : X.Is A C F m) (hY : Y.Is A C G m) (junk : Nat → α) (q : Nat) (hf : Free m q (2 * (A ++ C).prod)) :
    ∃ (Z : CBA) (m' : Buf α), X.plus junk q Y m = .ok (Z, m') ∧ Z.Is A C (fun ia ic => F ia ic + G ia ic) m' ∧ Z.T.arr = q ∧
      ∀ c, ¬ (q ≤ c ∧ c < q + 2 * (A ++ C).prod) → m' c = m c := by
  obtain ⟨T, m', h1, h2⟩ := CB.C592_plus_partial hX.tensor hY.tensor junk q hf
  exact ⟨⟨T, X.ak⟩, m', by rw [plus, h1]; rfl, ⟨hX.ne, h2.2.2.1, hX.ak⟩, h2.1, h2.2.2.2⟩

/-- Adding or subtracting one tensor gives a copy of the array, whatever the tensor is. -/
theorem C612_one_fails (h : X.Is A C F m) (y : CB) (junk : Nat → α) (q : Nat) (hf : Free m q (2 * (A ++ C).prod)) :
    ∃ (Z : CBA) (m' : Buf α), X.plusOne junk q y m = .ok (Z, m') ∧ Z.Is A C F m' := by
  obtain ⟨Z, m', h1, h2, _, _⟩ := C608_copy h junk q hf
  exact ⟨Z, m', h1, h2⟩

/-- 0 + 1 is 0. -/
theorem C612_witness_fails : ∃ X m1 y m2 Z m3, filled (fun _ => (0 : Int)) (fun _ => 9) 0 [1] [1] (fun _ => none) = .ok (X, m1) ∧ CB.filled (fun _ => 1) (fun _ => 9) 50 [1] m1 = .ok (y, m2) ∧
    X.plusOne (fun _ => 9) 70 y m2 = .ok (Z, m3) ∧ Z.get [0] [0] m3 = .ok ⟨0, 0⟩ := ⟨_, _, _, _, _, _, rfl, rfl, rfl, rfl⟩

example : ∃ X m1 Z m2, sequential (fun _ => (9 : Int)) 0 [2] [2] (fun _ => none) = .ok (X, m1) ∧ X.plus (fun _ => 9) 50 X m1 = .ok (Z, m2) ∧ Z.get [1] [1] m2 = .ok ⟨6, 0⟩ := ⟨_, _, _, _, rfl, rfl, rfl⟩

end CBA

end Cnine
