import Verif.Lemmas.CtensorArrayA
import Verif.Props.RtensorArrayA5
import Verif.Props.CtensorAOps

/-!
# Properties of arrays of complex tensors of the old backend (legacy/backendA/CtensorArrayA.hpp)
-/

namespace Cnine

variable {α : Type}

open RA

namespace CAA

/-! ### C558: constructors -/

/-- The array that `raw` makes. -/
def mk0 (q : Nat) (A D : List Nat) : CAA := ⟨RAA.mk0 q A D, q + RAA.room A D, 2 * RAA.room A D⟩

theorem mk0_im (q : Nat) (A D : List Nat) : (mk0 q A D).im = RAA.mk0 (q + RAA.room A D) A D := rfl

theorem raw_eq {A D : List Nat} (hA : A ≠ []) (hD : D ≠ []) (junk : Nat → α) (q : Nat) (m : Buf α) :
    raw junk q A D m = .ok (mk0 q A D, allocRaw junk m q (2 * RAA.room A D)) := by
  have h := RAA.raw_eq hA hD junk q m
  rw [RAA.raw] at h
  obtain ⟨⟨R, m1⟩, h1, h⟩ := Res.bind_eq_ok.1 h
  obtain ⟨X, h2, h⟩ := Res.bind_eq_ok.1 h
  cases h
  have hR : R = (RAA.mk0 q A D).base := by
    have h2' := h2
    rw [RAA.ofBase] at h2'
    obtain ⟨s, _, h3⟩ := Res.bind_eq_ok.1 h2'
    obtain ⟨d, _, h4⟩ := Res.bind_eq_ok.1 h3
    have h5 := congrArg (fun r : Res RAA => match r with | .ok X => X.base | _ => R) h4
    exact h5
  rw [raw, h1, Res.ok_bind]
  simp only
  rw [h2, Res.ok_bind, hR]
  rfl

theorem mk0_owns {q : Nat} {A D : List Nat} {c : Nat} (h : (mk0 q A D).Owns c) : q ≤ c ∧ c < q + 2 * RAA.room A D := by
  have hr := RAA.room_ge A D
  rcases h with h | h
  · have h1 : q ≤ c := h.1
    have h2 : c < q + A.prod * cells D := h.2
    omega
  · have h1 : q + RAA.room A D ≤ c := h.1
    have h2 : c < q + RAA.room A D + A.prod * cells D := h.2
    omega

theorem mk0_apart (q : Nat) (A D : List Nat) (c : Nat) (h : (mk0 q A D).re.Owns c) : ¬ (mk0 q A D).im.Owns c := by
  intro h'
  have hr := RAA.room_ge A D
  have h2 : c < q + A.prod * cells D := h.2
  have h1 : q + RAA.room A D ≤ c := h'.1
  omega

theorem mk0_is {A D : List Nat} (hA : A ≠ []) (hD : D ≠ []) (q : Nat) (F : List Nat → List Nat → Cx α) (m : Buf α) (hp : ∀ c, c < 2 * RAA.room A D → (m (q + c)).isSome)
    (hf : ∀ ia id, InRange ia A → InRange id D → m (q + (position A ia * cells D + position D id)) = some (F ia id).re ∧
      m (q + RAA.room A D + (position A ia * cells D + position D id)) = some (F ia id).im) : (mk0 q A D).Is A D F m := by
  have hr := RAA.room_ge A D
  refine ⟨RAA.mk0_is hA hD q _ m (fun c hc => hp c (by omega)) fun ia id a b => (hf ia id a b).1, ?_, mk0_apart q A D⟩
  rw [mk0_im]
  exact RAA.mk0_is hA hD _ _ m (fun c hc => by rw [Nat.add_assoc]; exact hp _ (by omega)) fun ia id a b => (hf ia id a b).2

theorem raw_is0 {A D : List Nat} (hA : A ≠ []) (hD : D ≠ []) (junk : Nat → α) (q : Nat) (m : Buf α) :
    (mk0 q A D).Is A D (fun ia id => ⟨junk (q + (position A ia * cells D + position D id)), junk (q + RAA.room A D + (position A ia * cells D + position D id))⟩)
      (allocRaw junk m q (2 * RAA.room A D)) := by
  have hr := RAA.room_ge A D
  refine mk0_is hA hD q _ _ (fun c hc => ?_) fun ia id a b => ?_
  · rw [RA.raw_at _ _ ⟨by omega, by omega⟩]; rfl
  · have := RAA.lt_of a b
    exact ⟨RA.raw_at _ _ ⟨by omega, by omega⟩, RA.raw_at _ _ ⟨by omega, by omega⟩⟩

theorem fresh_of {A D : List Nat} {q : Nat} {F : List Nat → List Nat → Cx α} {junk : Nat → α} {m m' : Buf α}
    (h : (mk0 q A D).Becomes A D F (allocRaw junk m q (2 * RAA.room A D)) m') : (mk0 q A D).Fresh q A D F m m' :=
  ⟨rfl, rfl, rfl, rfl, h.1, fun c hc => by rw [h.2 c fun ho => hc (mk0_owns ho), RA.raw_off _ _ hc]⟩

/-- A new array has the sizes that were asked for. -/
theorem C558_raw {A D : List Nat} (hA : A ≠ []) (hD : D ≠ []) (junk : Nat → α) (q : Nat) (m : Buf α) :
    ∃ X m' F, raw junk q A D m = .ok (X, m') ∧ X.Fresh q A D F m m' :=
  ⟨_, _, _, raw_eq hA hD junk q m, fresh_of ⟨raw_is0 hA hD junk q m, fun _ _ => rfl⟩⟩

/-- With no axes for the array, or none for the tensors, a stride outside the vector is read or written. -/
theorem C558_raw_empty (junk : Nat → α) (q : Nat) (A D : List Nat) (m : Buf α) (h : A = [] ∨ D = []) : raw junk q A D m = .ub := by
  rcases h with rfl | rfl
  · rfl
  · cases A <;> rfl

theorem zeros_eq [Zero α] {A D : List Nat} (hA : A ≠ []) (hD : D ≠ []) (junk : Nat → α) (q : Nat) (m : Buf α) :
    ∃ m', zeros junk q A D m = .ok (mk0 q A D, m') ∧ (mk0 q A D).Fresh q A D (fun _ _ => 0) m m' ∧ ∀ i, i < 2 * RAA.room A D → m' (q + i) = some 0 := by
  obtain ⟨m', h1, h2, h3⟩ := loop_cells (2 * RAA.room A D) (fun i => q + i) (fun _ => (0 : α)) (fun i m => m.write (q + i) 0) (allocRaw junk m q (2 * RAA.room A D))
    (fun i _ j _ e => by omega) (fun i hi => by rw [RA.raw_at _ _ ⟨by omega, by omega⟩]; rfl) (fun i _ m' _ => rfl)
  have hr := RAA.room_ge A D
  refine ⟨m', ?_, ⟨rfl, rfl, rfl, rfl, mk0_is hA hD q _ _ (fun c hc => ?_) fun ia id a b => ?_, fun c hc => ?_⟩, h2⟩
  · rw [zeros, raw_eq hA hD, Res.ok_bind]
    show (loop (2 * RAA.room A D) (allocRaw junk m q (2 * RAA.room A D)) (fun i m => m.write (q + i) 0) >>= _) = _
    rw [h1, Res.ok_bind]
  · rw [h2 c hc]; rfl
  · have := RAA.lt_of a b
    refine ⟨h2 _ (by omega), ?_⟩
    rw [Nat.add_assoc]
    exact h2 _ (by omega)
  · rw [h3 c fun i hi e => hc ⟨by omega, by omega⟩, RA.raw_off _ _ hc]

theorem C558_zeros [Zero α] {A D : List Nat} (hA : A ≠ []) (hD : D ≠ []) (junk : Nat → α) (q : Nat) (m : Buf α) :
    ∃ X m', zeros junk q A D m = .ok (X, m') ∧ X.Fresh q A D (fun _ _ => 0) m m' := by
  obtain ⟨m', h1, h2, _⟩ := zeros_eq hA hD junk q m
  exact ⟨_, m', h1, h2⟩

/-- Random numbers: no two parts of entries get the same draw. -/
theorem C558_filled {A D : List Nat} (hA : A ≠ []) (hD : D ≠ []) (f g : Nat → α) (junk : Nat → α) (q : Nat) (m : Buf α) :
    ∃ X m', ∃ e : List Nat → List Nat → Nat, filled f g junk q A D m = .ok (X, m') ∧ X.Fresh q A D (fun ia id => ⟨f (e ia id), g (e ia id)⟩) m m' ∧
      ∀ ia id ja jd, InRange ia A → InRange id D → InRange ja A → InRange jd D → e ia id = e ja jd → ia = ja ∧ id = jd := by
  have hr := RAA.room_ge A D
  obtain ⟨m1, h1, h2, h3⟩ := loop_cells (RAA.room A D) (fun i => q + i) f (fun i m => m.write (q + i) (f i)) (allocRaw junk m q (2 * RAA.room A D))
    (fun i _ j _ e => by omega) (fun i hi => by rw [RA.raw_at _ _ ⟨by omega, by omega⟩]; rfl) (fun i _ m' _ => rfl)
  obtain ⟨m2, h4, h5, h6⟩ := loop_cells (RAA.room A D) (fun i => q + RAA.room A D + i) g (fun i m => m.write (q + RAA.room A D + i) (g i)) m1
    (fun i _ j _ e => by omega) (fun i hi => by rw [h3 _ fun j hj e => by omega, RA.raw_at _ _ ⟨by omega, by omega⟩]; rfl) (fun i _ m' _ => rfl)
  refine ⟨_, m2, fun ia id => position A ia * cells D + position D id, ?_, ⟨rfl, rfl, rfl, rfl, mk0_is hA hD q _ _ (fun c hc => ?_) fun ia id a b => ?_, fun c hc => ?_⟩,
    fun ia id ja jd a b c d e => GT.pad_inj (cells_pos D).2 a b c d e⟩
  · rw [filled, raw_eq hA hD, Res.ok_bind]
    show (loop (RAA.room A D) (allocRaw junk m q (2 * RAA.room A D)) (fun i m => m.write (q + i) (f i)) >>= fun m => loop (RAA.room A D) m (fun i m => m.write (q + RAA.room A D + i) (g i)) >>= _) = _
    rw [h1, Res.ok_bind, h4, Res.ok_bind]
  · rcases Nat.lt_or_ge c (RAA.room A D) with l | l
    · rw [h6 _ fun j hj e => by omega, h2 c l]; rfl
    · have := h5 (c - RAA.room A D) (by omega)
      rw [show q + RAA.room A D + (c - RAA.room A D) = q + c by omega] at this
      rw [this]; rfl
  · have := RAA.lt_of a b
    exact ⟨by rw [h6 _ fun j hj e => by omega]; exact h2 _ (by omega), h5 _ (by omega)⟩
  · rw [h6 c fun i hi e => hc ⟨by omega, by omega⟩, h3 c fun i hi e => hc ⟨by omega, by omega⟩, RA.raw_off _ _ hc]

/-- The entries are numbered through, tensor after tensor, and real. -/
theorem C558_sequential [Zero α] [NatCast α] {A D : List Nat} (hA : A ≠ []) (hD : D ≠ []) (junk : Nat → α) (q : Nat) (m : Buf α) :
    ∃ X m', sequential junk q A D m = .ok (X, m') ∧ X.Fresh q A D (fun ia id => ⟨((position (A ++ D) (ia ++ id) : Nat) : α), 0⟩) m m' := by
  obtain ⟨m1, h1, h2, _⟩ := zeros_eq hA hD junk q m
  obtain ⟨m', h3, h4⟩ := RAA.cells_core h2.is.re
    (fun j m => loop (mk0 q A D).re.asize m fun i m => m.write ((mk0 q A D).re.base.arr + (i + j * (mk0 q A D).re.cellstride)) ((i + j * (mk0 q A D).re.asize : Nat) : α))
    (fun ia id => ((position (A ++ D) (ia ++ id) : Nat) : α)) (by
      intro ia hi m' hc _
      obtain ⟨m'', e1, e2⟩ := RA.all_run hc (fun i => ((i + position A ia * D.prod : Nat) : α))
        (fun i m => m.write (q + (i + position A ia * cells D)) ((i + position A ia * D.prod : Nat) : α)) (by
          intro i _ m' _
          show m'.write (q + (i + position A ia * cells D)) _ = m'.write (q + position A ia * cells D + i) _
          rw [show q + (i + position A ia * cells D) = q + position A ia * cells D + i by omega])
      refine ⟨m'', e1, RA.becomes_congr e2 fun id hd => ?_⟩
      rw [GT.position_app hi.length, Nat.add_comm])
  have hb := two h2.is h4 ⟨h2.is.im_after h4, fun _ _ => rfl⟩
  refine ⟨_, m', ?_, ⟨rfl, rfl, rfl, rfl, hb.1, fun c hc => ?_⟩⟩
  · rw [sequential, h1, Res.ok_bind]
    simp only
    rw [show (mk0 q A D).re.aasize = A.prod from rfl, h3, Res.ok_bind]
  · rw [hb.2 c fun ho => hc (mk0_owns ho), h2.rest c hc]

/-! ### Tensors of an array -/

/-- `set_cell`, with an index or with a number. -/
theorem C559_setCell {X : CAA} {A D : List Nat} {F : List Nat → List Nat → Cx α} {m : Buf α} (h : X.Is A D F m) {x : CA} {G : List Nat → Cx α} (hx : x.Is D G m)
    {ia : List Nat} (hi : InRange ia A) (ha : ∀ c, X.Owns c → ¬ x.Owns c) :
    ∃ m', X.setCell ia x m = .ok m' ∧ X.setCellAt (position A ia) x m = .ok m' ∧ X.Becomes A D (fun ja => if ja = ia then G else F ja) m m' := by
  obtain ⟨a1, a2, a3, a4⟩ := apart_x ha
  obtain ⟨m1, h1, h2, h3⟩ := RAA.C516_setCell h.re hx.re hi a1
  obtain ⟨m2, h4, h5, h6⟩ := RAA.C516_setCell (h.im_after h3) (hx.im.keep fun c hc => h3.2 c fun o => a2 c o hc) hi a4
  refine ⟨m2, by rw [setCell, h1, Res.ok_bind, h4], by rw [setCellAt, h2, Res.ok_bind, h5], becomes_congr (two h h3 h6) fun ja jd _ _ => ?_⟩
  by_cases e : ja = ia <;> simp [e]

/-- `add_to_cell`, with an index or with a number. -/
theorem C559_addToCell [Add α] {X : CAA} {A D : List Nat} {F : List Nat → List Nat → Cx α} {m : Buf α} (h : X.Is A D F m) {x : CA} {G : List Nat → Cx α} (hx : x.Is D G m)
    {ia : List Nat} (hi : InRange ia A) (ha : ∀ c, X.Owns c → ¬ x.Owns c) :
    ∃ m', X.addToCell ia x m = .ok m' ∧ X.addToCellAt (position A ia) x m = .ok m' ∧ X.Becomes A D (fun ja jd => if ja = ia then F ja jd + G jd else F ja jd) m m' := by
  obtain ⟨a1, a2, a3, a4⟩ := apart_x ha
  obtain ⟨m1, h1, h2, h3⟩ := RAA.C516_addToCell h.re hx.re hi a1
  obtain ⟨m2, h4, h5, h6⟩ := RAA.C516_addToCell (h.im_after h3) (hx.im.keep fun c hc => h3.2 c fun o => a2 c o hc) hi a4
  refine ⟨m2, by rw [addToCell, h1, Res.ok_bind, h4], by rw [addToCellAt, h2, Res.ok_bind, h5], becomes_congr (two h h3 h6) fun ja jd _ _ => ?_⟩
  by_cases e : ja = ia
  · simp only [e, if_true]; rfl
  · simp [e]

/-- Copying a tensor out of the array. -/
theorem C559_copyCellInto {X : CAA} {A D : List Nat} {F : List Nat → List Nat → Cx α} {m : Buf α} (h : X.Is A D F m) {r : CA} {G : List Nat → Cx α} (hr : r.Is D G m)
    {ia : List Nat} (hi : InRange ia A) (ha : ∀ c, X.Owns c → ¬ r.Owns c) : ∃ m', X.copyCellInto r ia m = .ok m' ∧ r.Becomes D (F ia) m m' := by
  obtain ⟨a1, a2, a3, a4⟩ := apart_x ha
  obtain ⟨m1, h1, h2⟩ := RAA.C516_copyCellInto h.re hr.re hi a1
  obtain ⟨m2, h3, h4⟩ := RAA.C516_copyCellInto (h.im.keep fun c hc => h2.2 c fun o => a3 c hc o) (hr.im_after h2) hi a4
  exact ⟨m2, by rw [copyCellInto, h1, Res.ok_bind, h3], CA.two hr h2 h4⟩

/-- Adding a tensor of the array to another. -/
theorem C559_addCellInto [Add α] {X : CAA} {A D : List Nat} {F : List Nat → List Nat → Cx α} {m : Buf α} (h : X.Is A D F m) {r : CA} {G : List Nat → Cx α} (hr : r.Is D G m)
    {ia : List Nat} (hi : InRange ia A) (ha : ∀ c, X.Owns c → ¬ r.Owns c) : ∃ m', X.addCellInto r ia m = .ok m' ∧ r.Becomes D (fun id => G id + F ia id) m m' := by
  obtain ⟨a1, a2, a3, a4⟩ := apart_x ha
  obtain ⟨m1, h1, h2⟩ := RAA.C516_addCellInto h.re hr.re hi a1
  obtain ⟨m2, h3, h4⟩ := RAA.C516_addCellInto (h.im.keep fun c hc => h2.2 c fun o => a3 c hc o) (hr.im_after h2) hi a4
  exact ⟨m2, by rw [addCellInto, h1, Res.ok_bind, h3], CA.two hr h2 h4⟩

/-- `cell(i)`, `cell(aix)` are the tensor at the index. -/
theorem C559_cell {X : CAA} {A D : List Nat} {F : List Nat → List Nat → Cx α} {m : Buf α} (h : X.Is A D F m) (hk : X.re.k = some D.length) {ia : List Nat} (hi : InRange ia A) :
    ∃ y, X.cellIx ia = .ok y ∧ X.cell (position A ia) = .ok y ∧ y.Is D (F ia) m ∧ y.isView = true ∧ ∀ c, y.Owns c → X.Owns c :=
  ⟨_, by rw [cellIx, h.re.ixArr hi, Res.ok_bind, cell_eq hk], cell_eq hk _, h.cellIs hi, rfl, fun _ ho => h.cellOwns (position_lt hi) ho⟩

/-- `cell(i,j)`. -/
theorem C559_cell2 {X : CAA} {a b : Nat} {D : List Nat} {F : List Nat → List Nat → Cx α} {m : Buf α} (h : X.Is [a, b] D F m) (i j : Nat) : X.cell2 i j = X.cellIx [i, j] := by
  have e : X.re.astrides = [b, 1] := by rw [h.re.astrides]; simp
  rw [cell2, cellIx, e]
  show X.cell _ = X.cell _
  simp

/-- Different tensors share no cell. -/
theorem C559_apart {X : CAA} {A D : List Nat} {F : List Nat → List Nat → Cx α} {m : Buf α} (h : X.Is A D F m) {ia ja : List Nat} (hi : InRange ia A) (hj : InRange ja A)
    (hn : ia ≠ ja) {y z : CA} (hy : X.cellIx ia = .ok y) (hz : X.cellIx ja = .ok z) : y.Apart z := by
  cases e : X.re.k with
  | none => rw [cellIx, h.re.ixArr hi, Res.ok_bind, cell, e] at hy; exact absurd hy (by simp)
  | some k =>
    rw [cellIx, h.re.ixArr hi, Res.ok_bind, cell_eq e] at hy
    rw [cellIx, h.re.ixArr hj, Res.ok_bind, cell_eq e] at hz
    cases hy
    cases hz
    exact h.cellApart (position_lt hi) (position_lt hj) fun e => hn (C362_distinct hi hj e)

/-- Every tensor a copy of `x`. -/
theorem C558_repeated {A D : List Nat} (hA : A ≠ []) {x : CA} {G : List Nat → Cx α} {m : Buf α} (hx : x.Is D G m) (junk : Nat → α) (q : Nat) (hf : Free m q (2 * RAA.room A D)) :
    ∃ X m', repeated junk q A x m = .ok (X, m') ∧ X.Fresh q A D (fun _ => G) m m' := by
  have h0 := raw_is0 hA hx.ne junk q m
  have hx0 := hx.old hf junk
  have ha : ∀ c, (mk0 q A D).Owns c → ¬ x.Owns c := fun c o o' => hx.not_free hf o' (mk0_owns o)
  obtain ⟨m', h1, h2⟩ := ccells_core h0 (fun i m => (mk0 q A D).setCellAt i x m) (fun _ => G) (by
    intro ia hi m' hc hm
    have hx' : x.Is D G m' := hx0.keep fun c ho => hm c fun o => ha c o ho
    obtain ⟨p1, p2, p3, p4⟩ := apart_x ha
    obtain ⟨m1, w, e1, e2, e3⟩ := C370_setT hc.re hx'.re rfl fun c o o' => ha c (h0.cellOwns (position_lt hi) (.inl o)) (.inl o')
    obtain ⟨m2, w', e4, e5, e6⟩ := C370_setT (hc.im_after e2) (hx'.im.keep fun c ho => e2.2 c fun o => ha c (h0.cellOwns (position_lt hi) (.inl o)) (.inr ho)) rfl
      fun c o o' => ha c (h0.cellOwns (position_lt hi) (.inr o)) (.inr o')
    refine ⟨m2, ?_, CA.becomes_congr (CA.two hc e2 e5) fun id hd => ?_⟩
    · rw [RA.setT, decide_eq_true (by rw [hc.re.asize, hx'.re.asize]), Res.assrt_true, Res.ok_bind] at e1
      rw [RA.setT, decide_eq_true (by rw [(hc.im_after e2).asize, hx'.im.asize]), Res.assrt_true, Res.ok_bind] at e4
      show (stdCopy m' x.arr D.prod (q + position A ia * cells D) >>= fun m => stdCopy m x.arrc D.prod (q + RAA.room A D + position A ia * cells D)) = _
      refine Eq.trans ?_ e4
      have e1' : stdCopy m' x.arr D.prod (q + position A ia * cells D) = .ok m1 := e1
      rw [e1', Res.ok_bind]
      rfl
    · rw [e3 id id hd hd rfl, e6 id id hd hd rfl])
  refine ⟨_, m', ?_, fresh_of h2⟩
  rw [repeated, hx.dims, raw_eq hA hx.ne, Res.ok_bind]
  show (loop A.prod _ _ >>= _) = _
  rw [h1, Res.ok_bind]

example : (match sequential (fun _ => (9 : Int)) 100 [2, 2] [3] (fun _ => none) with
    | .ok (X, m') => (X.re.base.strides == [64, 32, 1] && X.arrc == 228 &&
        ((List.range 4).map fun i => (m' (100 + 32 * i), m' (102 + 32 * i), m' (228 + 32 * i))) == [(some 0, some 2, some 0), (some 3, some 5, some 0), (some 6, some 8, some 0),
          (some 9, some 11, some 0)])
    | _ => false) = true := by decide +kernel

example : (match repeated (fun _ => (9 : Int)) 100 [2] ⟨0, 2, [2], [1], 2, 4, 2, -1, false⟩ (Buf.ofList [7, 8, 5, 6]) with
    | .ok (X, m') => (X.arrc == 164 && ([100, 101, 132, 133, 164, 165, 196, 197].map m') == [some 7, some 8, some 7, some 8, some 5, some 6, some 5, some 6])
    | _ => false) = true := by decide +kernel

/-- An array of 2 vectors with 2 entries. -/
def ex : CAA := ⟨⟨⟨0, [2, 2], [32, 1], 64, 64, 64, -1, false⟩, some 1, -1, [2], [2], [1], [1], 2, 2, 32⟩, 64, 128⟩

theorem ex_is : ex.Is [2] [2] (fun ia id => (⟨((position [2] ia * 32 + position [2] id : Nat) : Int), ((64 + (position [2] ia * 32 + position [2] id) : Nat) : Int)⟩ : Cx Int))
    (fun c => if c < 128 then some (c : Int) else none) := by
  refine ⟨⟨by simp, by simp, rfl, rfl, rfl, fun _ => rfl, Nat.le_refl _, rfl, rfl, rfl, rfl, rfl, rfl, rfl, fun c hc => ?_, fun ia id a b => ?_⟩,
    ⟨by simp, by simp, rfl, rfl, rfl, fun _ => rfl, Nat.le_refl _, rfl, rfl, rfl, rfl, rfl, rfl, rfl, fun c hc => ?_, fun ia id a b => ?_⟩, ?_⟩
  · have : c < 64 := hc
    show (if 0 + c < 128 then some ((0 + c : Nat) : Int) else none).isSome
    rw [if_pos (by omega)]; rfl
  · have := RAA.lt_of a b
    have : position [2] ia * 32 + position [2] id < 64 := this
    show (if 0 + (position [2] ia * 32 + position [2] id) < 128 then some ((0 + (position [2] ia * 32 + position [2] id) : Nat) : Int) else none) = _
    rw [if_pos (by omega), Nat.zero_add]
  · have : c < 64 := hc
    show (if 64 + c < 128 then some ((64 + c : Nat) : Int) else none).isSome
    rw [if_pos (by omega)]; rfl
  · have := RAA.lt_of a b
    have : position [2] ia * 32 + position [2] id < 64 := this
    show (if 64 + (position [2] ia * 32 + position [2] id) < 128 then some ((64 + (position [2] ia * 32 + position [2] id) : Nat) : Int) else none) = _
    rw [if_pos (by omega)]
  · rintro c ⟨h1, h2⟩ ⟨h3, h4⟩
    have h2 : c < 0 + 64 := h2
    have h3 : 64 ≤ c := h3
    omega

example : ∃ m', ex.setCell [1] ⟨128, 130, [2], [1], 2, 4, 2, -1, true⟩ (fun c => if c < 132 then some (c : Int) else none) = .ok m' ∧
    [0, 1, 32, 33, 64, 65, 96, 97].map m' = [some 0, some 1, some 128, some 129, some 64, some 65, some 130, some 131] := ⟨_, rfl, rfl⟩

end CAA

end Cnine
