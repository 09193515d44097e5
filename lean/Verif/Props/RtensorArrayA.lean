import Verif.Lemmas.RtensorArrayA
import Verif.Props.CublasA
import Mathlib.Tactic.IntervalCases

/-!
# Properties of arrays of tensors of the old backend (legacy/backendA/RtensorArrayA.hpp)
-/

namespace Cnine

variable {α : Type}

open RA

namespace RAA

/-! ### C515: constructors -/

/-- The array that `raw` makes. -/
def mk0 (q : Nat) (A D : List Nat) : RAA :=
  ⟨⟨q, A ++ D, rmStridesFrom (cells D) A ++ rmStridesFrom 1 D, A.prod * cells D, room A D, room A D, -1, false⟩, some D.length, -1, A, D,
    (rmStridesFrom (cells D) A).map (· / cells D), rmStridesFrom 1 D, A.prod, D.prod, cells D⟩

theorem cells_dvd (D : List Nat) : ∃ k, cells D = k * 32 := by
  unfold cells
  split
  · exact ⟨1, rfl⟩
  · exact ⟨_, rfl⟩

theorem room_eq (A D : List Nat) : GT.roundup (A.prod * cells D) 32 = room A D := by
  obtain ⟨k, hk⟩ := cells_dvd D
  have hp := (cells_pos D).1
  unfold room GT.roundup
  split
  · next h => rw [h]; simp
  · next h =>
    have : A.prod * cells D = A.prod * k * 32 := by rw [hk, Nat.mul_assoc]
    have h1 : 1 ≤ A.prod * k := Nat.mul_pos (Nat.pos_of_ne_zero h) (by omega)
    rw [this]
    generalize A.prod * k = n at *
    omega

theorem raw_eq {A D : List Nat} (hA : A ≠ []) (hD : D ≠ []) (junk : Nat → α) (q : Nat) (m : Buf α) :
    raw junk q A D m = .ok (mk0 q A D, allocRaw junk m q (room A D)) := by
  obtain ⟨a, as, rfl⟩ := List.exists_cons_of_ne_nil hA
  obtain ⟨d, ds, rfl⟩ := List.exists_cons_of_ne_nil hD
  have hr := room_eq (a :: as) (d :: ds)
  have hroom : max (room (a :: as) (d :: ds)) 1 = room (a :: as) (d :: ds) := by
    apply Nat.max_eq_left
    unfold room
    have := (cells_pos (d :: ds)).1
    split
    · omega
    · next h => exact Nat.mul_pos (Nat.pos_of_ne_zero h) this
  have e1 : (rmStridesFrom 1 (d :: ds)).headD 0 * d = (d :: ds).prod := by
    rw [rmStridesFrom_cons, List.headD_cons, Nat.one_mul, List.prod_cons, Nat.mul_comm]
  have e2 : (rmStridesFrom (cells (d :: ds)) (a :: as)).headD 0 * a = (a :: as).prod * cells (d :: ds) := by
    rw [rmStridesFrom_cons, List.headD_cons, List.prod_cons]; ring
  have l1 : (rmStridesFrom (cells (d :: ds)) (a :: as)).length = (a :: as).length := by rw [GT.strides_from, List.length_map, rmStrides_length]
  have l2 : (rmStridesFrom 1 (d :: ds)).length = (d :: ds).length := by rw [GT.strides_from, List.length_map, rmStrides_length]
  have hb : array junk q (a :: as) (d :: ds) m = .ok ((mk0 q (a :: as) (d :: ds)).base, allocRaw junk m q (room (a :: as) (d :: ds))) := by
    simp only [array]
    rw [e1, roundup_cells, e2, hr, newArr, hroom]
    rfl
  rw [raw, hb, Res.ok_bind]
  simp only
  rw [ofBase]
  have g1 : Res.get (mk0 q (a :: as) (d :: ds)).base.strides (a :: as).length = .ok (ds.prod) := by
    show Res.get (rmStridesFrom (cells (d :: ds)) (a :: as) ++ rmStridesFrom 1 (d :: ds)) _ = _
    rw [Res.get, List.getElem?_append_right (by rw [l1]), l1, Nat.sub_self, rmStridesFrom_cons, List.getElem?_cons_zero, Nat.one_mul]
  rw [g1, Res.ok_bind, show Res.get (d :: ds) 0 = .ok d from rfl, Res.ok_bind]
  have e3 : ds.prod * d = (d :: ds).prod := by rw [List.prod_cons, Nat.mul_comm]
  simp only [e3, roundup_cells]
  have hc := (cells_pos (d :: ds)).1
  have t1 : (mk0 q (a :: as) (d :: ds)).base.strides.take (a :: as).length = rmStridesFrom (cells (d :: ds)) (a :: as) := by
    show (rmStridesFrom (cells (d :: ds)) (a :: as) ++ rmStridesFrom 1 (d :: ds)).take _ = _
    rw [← l1, List.take_left]
  have t2 : ((mk0 q (a :: as) (d :: ds)).base.strides.drop (a :: as).length).take (d :: ds).length = rmStridesFrom 1 (d :: ds) := by
    show ((rmStridesFrom (cells (d :: ds)) (a :: as) ++ rmStridesFrom 1 (d :: ds)).drop _).take _ = _
    rw [← l1, List.drop_left, ← l2, List.take_length]
  have t3 : (mk0 q (a :: as) (d :: ds)).base.asize / cells (d :: ds) = (a :: as).prod := Nat.mul_div_cancel _ hc
  rw [t1, t2, t3]
  rfl

theorem mk0_is {A D : List Nat} (hA : A ≠ []) (hD : D ≠ []) (q : Nat) (f : List Nat → List Nat → α) (m : Buf α) (hp : ∀ c, c < A.prod * cells D → (m (q + c)).isSome)
    (hf : ∀ ia id, InRange ia A → InRange id D → m (q + (position A ia * cells D + position D id)) = some (f ia id)) : (mk0 q A D).Is A D f m where
  neA := hA
  neD := hD
  dims := rfl
  strides := by
    show _ = _
    rw [high_eq, compact_rm]
    show rmStridesFrom (cells D) A ++ rmStridesFrom 1 D = _
    rw [GT.strides_from 1 D]; simp
  total := rfl
  cst := fun h => if_neg h
  room := by
    show _ ≤ room A D
    unfold room
    split
    · next h => rw [h]; simp
    · exact Nat.le_refl _
  adims := rfl
  cdims := rfl
  astrides := by
    show (rmStridesFrom (cells D) A).map (· / cells D) = _
    rw [← high_eq, List.map_map]
    apply List.map_congr_left
    intro l _
    exact Nat.mul_div_cancel _ (cells_pos D).1
  cstrides := by
    show rmStridesFrom 1 D = _
    rw [compact_rm, GT.strides_from]; simp
  aasize := rfl
  asize := rfl
  cellstride := rfl
  pad := hp
  has := hf

theorem room_ge (A D : List Nat) : A.prod * cells D ≤ room A D := by
  unfold room
  split
  · next h => rw [h]; simp
  · exact Nat.le_refl _

theorem raw_is0 {A D : List Nat} (hA : A ≠ []) (hD : D ≠ []) (junk : Nat → α) (q : Nat) (m : Buf α) :
    (mk0 q A D).Is A D (fun ia id => junk (q + (position A ia * cells D + position D id))) (allocRaw junk m q (room A D)) := by
  have hr := room_ge A D
  refine mk0_is hA hD q _ _ (fun c hc => ?_) fun ia id a b => ?_
  · rw [RA.raw_at _ _ ⟨by omega, by omega⟩]; rfl
  · have := lt_of a b
    exact RA.raw_at _ _ ⟨by omega, by omega⟩

theorem fresh_of {A D : List Nat} {q : Nat} {f : List Nat → List Nat → α} {junk : Nat → α} {m m' : Buf α}
    (h : (mk0 q A D).Becomes A D f (allocRaw junk m q (room A D)) m') : (mk0 q A D).Fresh q A D f m m' := by
  refine ⟨rfl, rfl, rfl, rfl, h.1, fun c hc => ?_⟩
  have hr := room_ge A D
  rw [h.2 c fun ho => hc ⟨ho.1, by have : c < q + A.prod * cells D := ho.2; omega⟩, RA.raw_off _ _ hc]

/-- A new array has the sizes that were asked for, and `k` is set. -/
theorem C515_raw {A D : List Nat} (hA : A ≠ []) (hD : D ≠ []) (junk : Nat → α) (q : Nat) (m : Buf α) :
    ∃ X m' f, raw junk q A D m = .ok (X, m') ∧ X.Fresh q A D f m m' :=
  ⟨_, _, _, raw_eq hA hD junk q m, fresh_of ⟨raw_is0 hA hD junk q m, fun _ _ => rfl⟩⟩

/-- With no axes for the array, or none for the tensors, a stride outside the vector is read or written. -/
theorem C515_raw_empty (junk : Nat → α) (q : Nat) (A D : List Nat) (m : Buf α) (h : A = [] ∨ D = []) : raw junk q A D m = .ub := by
  rcases h with rfl | rfl
  · rfl
  · cases A <;> rfl

theorem fill_core {A D : List Nat} (hA : A ≠ []) (hD : D ≠ []) (g : Nat → α) (junk : Nat → α) (q : Nat) (m : Buf α) :
    ∃ m', RA.fillArr g (mk0 q A D).base (room A D) (allocRaw junk m q (room A D)) = .ok m' ∧
      (mk0 q A D).Fresh q A D (fun ia id => g (position A ia * cells D + position D id)) m m' := by
  have hr := room_ge A D
  obtain ⟨m', h1, h2, h3⟩ := loop_cells (room A D) (fun i => q + i) g (fun i m => m.write (q + i) (g i)) (allocRaw junk m q (room A D))
    (fun i _ j _ e => by omega) (fun i hi => by rw [RA.raw_at _ _ ⟨by omega, by omega⟩]; rfl) (fun i _ m' _ => rfl)
  refine ⟨m', h1, ⟨rfl, rfl, rfl, rfl, mk0_is hA hD q _ _ (fun c hc => ?_) fun ia id a b => ?_, fun c hc => ?_⟩⟩
  · rw [h2 c (by omega)]; rfl
  · have := lt_of a b
    exact h2 _ (by omega)
  · rw [h3 c fun i hi e => hc ⟨by omega, by omega⟩, RA.raw_off _ _ hc]

theorem C515_zeros [Zero α] {A D : List Nat} (hA : A ≠ []) (hD : D ≠ []) (junk : Nat → α) (q : Nat) (m : Buf α) :
    ∃ X m', zeros junk q A D m = .ok (X, m') ∧ X.Fresh q A D (fun _ _ => 0) m m' := by
  obtain ⟨m', h1, h2⟩ := fill_core hA hD (fun _ => (0 : α)) junk q m
  refine ⟨_, m', ?_, h2⟩
  rw [zeros, raw_eq hA hD, Res.ok_bind]
  show (RA.fillArr (fun _ => 0) (mk0 q A D).base (room A D) _ >>= _) = _
  rw [h1, Res.ok_bind]

/-- Ones, and random numbers: every entry is one of the numbers drawn, and different entries are different draws. -/
theorem C515_filled {A D : List Nat} (hA : A ≠ []) (hD : D ≠ []) (g : Nat → α) (junk : Nat → α) (q : Nat) (m : Buf α) :
    ∃ X m', ∃ e : List Nat → List Nat → Nat, filled g junk q A D m = .ok (X, m') ∧ X.Fresh q A D (fun ia id => g (e ia id)) m m' ∧
      ∀ ia id ja jd, InRange ia A → InRange id D → InRange ja A → InRange jd D → e ia id = e ja jd → ia = ja ∧ id = jd := by
  obtain ⟨m', h1, h2⟩ := fill_core hA hD g junk q m
  refine ⟨_, m', fun ia id => position A ia * cells D + position D id, ?_, h2, fun ia id ja jd a b c d e => GT.pad_inj (cells_pos D).2 a b c d e⟩
  rw [filled, raw_eq hA hD, Res.ok_bind]
  show (RA.fillArr g (mk0 q A D).base (room A D) _ >>= _) = _
  rw [h1, Res.ok_bind]

/-- The entries are numbered through, tensor after tensor. -/
theorem C515_sequential [Zero α] [NatCast α] {A D : List Nat} (hA : A ≠ []) (hD : D ≠ []) (junk : Nat → α) (q : Nat) (m : Buf α) :
    ∃ X m', sequential junk q A D m = .ok (X, m') ∧ X.Fresh q A D (fun ia id => ((position (A ++ D) (ia ++ id) : Nat) : α)) m m' := by
  obtain ⟨m1, h1, h2⟩ := fill_core hA hD (fun _ => (0 : α)) junk q m
  obtain ⟨m', h3, h4⟩ := cells_core h2.is
    (fun j m => loop (mk0 q A D).asize m fun i m => m.write ((mk0 q A D).base.arr + (i + j * (mk0 q A D).cellstride)) ((i + j * (mk0 q A D).asize : Nat) : α))
    (fun ia id => ((position (A ++ D) (ia ++ id) : Nat) : α)) (by
      intro ia hi m' hc _
      obtain ⟨m'', e1, e2⟩ := RA.all_run hc (fun i => ((i + position A ia * D.prod : Nat) : α))
        (fun i m => m.write (q + (i + position A ia * cells D)) ((i + position A ia * D.prod : Nat) : α)) (by
          intro i _ m' _
          show m'.write (q + (i + position A ia * cells D)) _ = m'.write (q + position A ia * cells D + i) _
          rw [show q + (i + position A ia * cells D) = q + position A ia * cells D + i by omega])
      refine ⟨m'', e1, RA.becomes_congr e2 fun id hd => ?_⟩
      rw [GT.position_app hi.length, Nat.add_comm])
  refine ⟨_, m', ?_, ⟨rfl, rfl, rfl, rfl, h4.1, fun c hc => ?_⟩⟩
  · rw [sequential, zeros, raw_eq hA hD, Res.ok_bind]
    show ((RA.fillArr (fun _ => 0) (mk0 q A D).base (room A D) _ >>= _) >>= _) = _
    rw [h1, Res.ok_bind, Res.ok_bind]
    simp only
    rw [show (mk0 q A D).aasize = A.prod from rfl, h3, Res.ok_bind]
  · have hr := room_ge A D
    rw [h4.2 c fun ho => hc ⟨ho.1, by have : c < q + A.prod * cells D := ho.2; omega⟩, h2.rest c hc]

/-- `std::copy` of a whole tensor into a tensor of the array. -/
theorem copy_cell {X : RAA} {A D : List Nat} {f : List Nat → List Nat → α} {m : Buf α} (h : X.Is A D f m) {x : RA} {E : List Nat} {g : List Nat → α} (hx : x.Is E g m)
    (he : E.prod = D.prod) {ia : List Nat} (hi : InRange ia A) (ha : ∀ c, X.Owns c → ¬ x.Owns c) (m' : Buf α) (hc : (X.cellAt (position A ia)).Is D (f ia) m')
    (hm : ∀ c, ¬ X.Owns c → m' c = m c) :
    ∃ m'' w, stdCopy m' x.arr D.prod (X.base.arr + position A ia * cells D) = .ok m'' ∧ (X.cellAt (position A ia)).Becomes D w m' m'' ∧
      ∀ id ie, InRange id D → InRange ie E → position D id = position E ie → w id = g ie := by
  have hx' : x.Is E g m' := hx.keep fun c ho => hm c fun o => ha c o ho
  obtain ⟨m'', w, h1, h2, h3⟩ := C370_setT hc hx' he.symm fun c o o' => ha c (h.cellOwns (position_lt hi) o) o'
  refine ⟨m'', w, ?_, h2, h3⟩
  rw [RA.setT, decide_eq_true (by rw [hc.asize, hx'.asize, he]), Res.assrt_true, Res.ok_bind, hc.asize] at h1
  rw [← h1, ← h.cellstride]
  rfl

/-- Every tensor a copy of `x`. -/
theorem C515_repeated {A D : List Nat} (hA : A ≠ []) {x : RA} {g : List Nat → α} {m : Buf α} (hx : x.Is D g m) (junk : Nat → α) (q : Nat) (hf : Free m q (room A D)) :
    ∃ X m', repeated junk q A x m = .ok (X, m') ∧ X.Fresh q A D (fun _ => g) m m' := by
  have hr := room_ge A D
  have h0 := raw_is0 hA hx.ne junk q m
  have hfree : ∀ c, x.Owns c → ¬ (q ≤ c ∧ c < q + room A D) := fun c ho => hx.not_free hf ho
  have hx0 : x.Is D g (allocRaw junk m q (room A D)) := hx.keep fun c ho => RA.raw_off _ _ (hfree c ho)
  have ha : ∀ c, (mk0 q A D).Owns c → ¬ x.Owns c := fun c o o' => hfree c o' ⟨o.1, by have : c < q + A.prod * cells D := o.2; omega⟩
  obtain ⟨m', h1, h2⟩ := cells_core h0 (fun i m => (mk0 q A D).setCellAt i x m) (fun _ => g) (by
    intro ia hi m' hc hm
    obtain ⟨m'', w, e1, e2, e3⟩ := copy_cell h0 hx0 rfl hi ha m' hc hm
    exact ⟨m'', e1, RA.becomes_congr e2 fun id hd => e3 id id hd hd rfl⟩)
  refine ⟨_, m', ?_, fresh_of h2⟩
  rw [repeated, hx.dims, raw_eq hA hx.ne, Res.ok_bind]
  show (loop A.prod _ _ >>= _) = _
  rw [h1, Res.ok_bind]

example : (match sequential (fun _ => (9 : Int)) 100 [2, 2] [3] (fun _ => none) with
    | .ok (X, m') => (X.base.strides == [64, 32, 1] && X.astrides == [2, 1] && X.aasize == 4 &&
        ((List.range 4).map fun i => (m' (100 + 32 * i), m' (102 + 32 * i))) == [(some 0, some 2), (some 3, some 5), (some 6, some 8), (some 9, some 11)])
    | _ => false) = true := by decide +kernel

example : ∃ X m', repeated (fun _ => (9 : Int)) 32 [3] ⟨0, [2], [1], 2, 32, 32, -1, false⟩ (Buf.ofList [7, 8]) = .ok (X, m') ∧
    ((List.range 3).map fun i => (m' (32 + 32 * i), m' (33 + 32 * i))) = [(some 7, some 8), (some 7, some 8), (some 7, some 8)] := ⟨_, _, rfl, rfl⟩

/-! ### C516: tensors of an array -/

/-- `cell(i)`, `cell(i,j)`, `cell(aix)` are the tensor at the index. -/
theorem C516_cell {X : RAA} {A D : List Nat} {f : List Nat → List Nat → α} {m : Buf α} (h : X.Is A D f m) (hk : X.k = some D.length) {ia : List Nat} (hi : InRange ia A) :
    ∃ y, X.cellIx ia = .ok y ∧ X.cell (position A ia) = .ok y ∧ y.Is D (f ia) m ∧ y.isView = true ∧ ∀ c, y.Owns c → X.Owns c :=
  ⟨_, by rw [cellIx, h.ixArr hi, Res.ok_bind, cell_eq hk], cell_eq hk _, h.cellIs hi, rfl, fun _ ho => h.cellOwns (position_lt hi) ho⟩

theorem C516_cell2 {X : RAA} {a b : Nat} {D : List Nat} {f : List Nat → List Nat → α} {m : Buf α} (h : X.Is [a, b] D f m) (i j : Nat) : X.cell2 i j = X.cellIx [i, j] := by
  have e : X.astrides = [b, 1] := by rw [h.astrides]; simp
  rw [cell2, cellIx, e]
  show X.cell _ = X.cell _
  simp

theorem C516_apart {X : RAA} {A D : List Nat} {f : List Nat → List Nat → α} {m : Buf α} (h : X.Is A D f m) {ia ja : List Nat} (hi : InRange ia A) (hj : InRange ja A)
    (hn : ia ≠ ja) {y z : RA} (hy : X.cellIx ia = .ok y) (hz : X.cellIx ja = .ok z) : y.Apart z := by
  cases e : X.k with
  | none => rw [cellIx, h.ixArr hi, Res.ok_bind, cell, e] at hy; exact absurd hy (by simp)
  | some k =>
    rw [cellIx, h.ixArr hi, Res.ok_bind, cell_eq e] at hy
    rw [cellIx, h.ixArr hj, Res.ok_bind, cell_eq e] at hz
    cases hy
    cases hz
    exact h.cellApart fun e => hn (C362_distinct hi hj e)

/-- Copying a tensor out of the array. -/
theorem C516_copyCellInto {X : RAA} {A D : List Nat} {f : List Nat → List Nat → α} {m : Buf α} (h : X.Is A D f m) {r : RA} {g : List Nat → α} (hr : r.Is D g m)
    {ia : List Nat} (hi : InRange ia A) (ha : ∀ c, X.Owns c → ¬ r.Owns c) :
    ∃ m', X.copyCellInto r ia m = .ok m' ∧ r.Becomes D (f ia) m m' := by
  have hc := h.cellIs hi
  obtain ⟨m', w, h1, h2, h3⟩ := C370_setT hr hc rfl fun c o o' => ha c (h.cellOwns (position_lt hi) o') o
  refine ⟨m', ?_, RA.becomes_congr h2 fun id hd => h3 id id hd hd rfl⟩
  rw [RA.setT, decide_eq_true (by rw [hc.asize, hr.asize]), Res.assrt_true, Res.ok_bind, hr.asize] at h1
  rw [copyCellInto, h.ixBase hi, Res.ok_bind, h.asize, ← h1, ← h.cellstride]
  rfl

/-- Adding a tensor of the array to another. -/
theorem C516_addCellInto [Add α] {X : RAA} {A D : List Nat} {f : List Nat → List Nat → α} {m : Buf α} (h : X.Is A D f m) {r : RA} {g : List Nat → α} (hr : r.Is D g m)
    {ia : List Nat} (hi : InRange ia A) (ha : ∀ c, X.Owns c → ¬ r.Owns c) :
    ∃ m', X.addCellInto r ia m = .ok m' ∧ r.Becomes D (fun id => g id + f ia id) m m' := by
  have hc := h.cellIs hi
  obtain ⟨m', h1, h2⟩ := C370_add hr hc (.inl fun c o o' => ha c (h.cellOwns (position_lt hi) o') o)
  refine ⟨m', ?_, h2⟩
  rw [RA.add, RA.zipT, decide_eq_true (by rw [hc.asize, hr.asize]), Res.assrt_true, Res.ok_bind, hr.asize] at h1
  rw [addCellInto, h.ixBase hi, Res.ok_bind, h.asize, ← h1, ← h.cellstride]
  rfl

theorem one_cell {X : RAA} {A D : List Nat} {f : List Nat → List Nat → α} {m m' : Buf α} (h : X.Is A D f m) {ia : List Nat} (hi : InRange ia A) {w : List Nat → α}
    (hb : (X.cellAt (position A ia)).Becomes D w m m') : X.Becomes A D (fun ja => if ja = ia then w else f ja) m m' := by
  have arr : ∀ p, (X.cellAt p).arr = X.base.arr + p * cells D := fun p => by rw [← h.cellstride]; rfl
  refine ⟨h.mk' (fun c hc => ?_) fun ja jd a b => ?_, fun c hc => hb.2 c fun ho => hc (h.cellOwns (position_lt hi) ho)⟩
  · by_cases ho : (X.cellAt (position A ia)).Owns (X.base.arr + c)
    · obtain ⟨o1, o2⟩ := ho
      rw [arr] at o1 o2
      obtain ⟨id, d1, d2⟩ := GT.surj (show X.base.arr + c - (X.base.arr + position A ia * cells D) < D.prod by
        have : (X.cellAt (position A ia)).asize = D.prod := h.asize
        rw [this] at o2; omega)
      have := hb.1.has id d1
      rw [arr, d2, show X.base.arr + position A ia * cells D + (X.base.arr + c - (X.base.arr + position A ia * cells D)) = X.base.arr + c by omega] at this
      rw [this]; rfl
    · rw [hb.2 _ ho]; exact h.pad c hc
  · split
    · next e =>
      subst e
      have := hb.1.has jd b
      rwa [arr, Nat.add_assoc] at this
    · next e =>
      have ho : (X.cellAt (position A ja)).Owns (X.base.arr + (position A ja * cells D + position D jd)) := by
        have := (h.cellIs a).owns (position_lt b)
        rwa [arr, Nat.add_assoc] at this
      rw [hb.2 _ fun o => h.cellApart (fun e' => e (C362_distinct a hi e')) _ ho o, h.has ja jd a b]

/-- `set_cell`, with an index or with a number. -/
theorem C516_setCell {X : RAA} {A D : List Nat} {f : List Nat → List Nat → α} {m : Buf α} (h : X.Is A D f m) {x : RA} {g : List Nat → α} (hx : x.Is D g m)
    {ia : List Nat} (hi : InRange ia A) (ha : ∀ c, X.Owns c → ¬ x.Owns c) :
    ∃ m', X.setCell ia x m = .ok m' ∧ X.setCellAt (position A ia) x m = .ok m' ∧ X.Becomes A D (fun ja => if ja = ia then g else f ja) m m' := by
  obtain ⟨m', w, h1, h2, h3⟩ := copy_cell h hx rfl hi ha m (h.cellIs hi) fun _ _ => rfl
  refine ⟨m', ?_, ?_, one_cell h hi (RA.becomes_congr h2 fun id hd => h3 id id hd hd rfl)⟩
  · rw [setCell, h.ixBase hi, Res.ok_bind, h.asize, h1]
  · rw [setCellAt, h.asize, h.cellstride, h1]

/-- `add_to_cell`, with an index or with a number. -/
theorem C516_addToCell [Add α] {X : RAA} {A D : List Nat} {f : List Nat → List Nat → α} {m : Buf α} (h : X.Is A D f m) {x : RA} {g : List Nat → α} (hx : x.Is D g m)
    {ia : List Nat} (hi : InRange ia A) (ha : ∀ c, X.Owns c → ¬ x.Owns c) :
    ∃ m', X.addToCell ia x m = .ok m' ∧ X.addToCellAt (position A ia) x m = .ok m' ∧ X.Becomes A D (fun ja jd => if ja = ia then f ja jd + g jd else f ja jd) m m' := by
  have hc := h.cellIs hi
  obtain ⟨m', h1, h2⟩ := C370_add hc hx (.inl fun c o o' => ha c (h.cellOwns (position_lt hi) o) o')
  rw [RA.add, RA.zipT, decide_eq_true (by rw [hc.asize, hx.asize]), Res.assrt_true, Res.ok_bind] at h1
  have h1' : stdAdd (· + ·) m x.arr D.prod (X.base.arr + position A ia * cells D) = .ok m' := by
    rw [← h1, ← h.cellstride, ← h.asize]; rfl
  refine ⟨m', ?_, ?_, becomes_congr (one_cell h hi h2) fun ja jd _ _ => ?_⟩
  · rw [addToCell, h.ixBase hi, Res.ok_bind, h.asize, h1']
  · rw [addToCellAt, h.asize, h.cellstride, h1']
  · by_cases e : ja = ia
    · subst e; simp
    · simp [e]

/-- A 2 by 2 array of vectors with 3 entries. -/
def ex : RAA := ⟨⟨0, [2, 2, 3], [64, 32, 1], 128, 128, 128, -1, false⟩, some 1, -1, [2, 2], [3], [2, 1], [1], 4, 3, 32⟩

theorem ex_is : ex.Is [2, 2] [3] (fun ia id => ((position [2, 2] ia * 32 + position [3] id : Nat) : Int)) (fun c => if c < 128 then some (c : Int) else none) := by
  refine ⟨by simp, by simp, rfl, rfl, rfl, fun _ => rfl, by decide, rfl, rfl, rfl, rfl, rfl, rfl, rfl, fun c hc => ?_, fun ia id a b => ?_⟩
  · have : c < 128 := hc
    show (if 0 + c < 128 then _ else _ : Option Int).isSome
    rw [if_pos (by omega)]; rfl
  · have : _ < 128 := lt_of a b
    have e : ex.base.arr + (position [2, 2] ia * cells [3] + position [3] id) = position [2, 2] ia * cells [3] + position [3] id := Nat.zero_add _
    rw [e]
    exact if_pos this

example : ∃ y, ex.cellIx [1, 0] = .ok y ∧ y.arr = 64 := ⟨_, rfl, rfl⟩

example : ∃ m', ex.addToCell [1, 0] ⟨200, [3], [1], 3, 32, 32, -1, false⟩ (fun c => if c < 128 then some (c : Int) else if c < 232 then some 5 else none) = .ok m' ∧
    m' 64 = some 69 ∧ m' 66 = some 71 ∧ m' 67 = some 67 := ⟨_, rfl, rfl, rfl, rfl⟩

end RAA

end Cnine
