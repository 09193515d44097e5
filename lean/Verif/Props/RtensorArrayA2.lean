import Verif.Props.RtensorArrayA
import Verif.Props.Memory

/-!
# Arrays of tensors of the old backend: sizes, copies and changes of shape
-/

namespace Cnine

variable {α : Type}

open RA

namespace RAA

/-- A copy into memory that is too short. -/
theorem stdCopy_short (m : Buf α) (src n dst : Nat) {i : Nat} (hi : i < n) (h : m (dst + i) = none) : stdCopy m src n dst = .ub := by
  unfold stdCopy
  split
  · rfl
  · have key : ∀ (l : List Nat) (m : Buf α), i ∈ l → m (dst + i) = none → Res.forM l m (fun m j => copyCell m (dst + j) (src + j)) = .ub := by
      intro l
      induction l with
      | nil => intro m hi; exact absurd hi (by simp)
      | cons j l ih =>
        intro m hm h
        rw [Res.forM_cons]
        cases e : m (src + j) with
        | none => simp [copyCell, Buf.read, e]
        | some v =>
          cases e' : m (dst + j) with
          | none => simp [copyCell, Buf.read, Buf.write, e, e']
          | some w =>
            have hne : i ≠ j := by
              rintro rfl
              rw [h] at e'; cases e'
            have : copyCell m (dst + j) (src + j) = .ok fun b => if b = dst + j then some v else m b := by simp [copyCell, Buf.read, Buf.write, e, e']
            rw [this, Res.ok_bind]
            apply ih
            · exact (List.mem_cons.1 hm).resolve_left hne
            · show (if _ then _ else _) = _
              rw [if_neg (by omega), h]
    exact key _ m (List.mem_range.2 hi) h

/-! ### C517: sizes from `nbu` -/

theorem round_small {P : Nat} (h : P ≤ 30) : roundup ((P : Int) * -1) 32 = 32 := C35_roundup_zero _ _ (by omega) (by omega)

theorem round_large {P : Nat} (h : 31 ≤ P) : roundup ((P : Int) * -1) 32 ≤ 0 := by
  unfold roundup
  have e : ((P : Int) * -1 - 1).tdiv 32 = -(((P : Int) + 1) / 32) := by
    rw [show (P : Int) * -1 - 1 = -((P : Int) + 1) by omega, Int.neg_tdiv, Int.tdiv_eq_ediv_of_nonneg (by omega)]
  rw [e]
  omega

/-- What `get_cell` returns never has the sizes of a tensor of the array: it has one axis more, of size -1. -/
theorem C517_getCell_fails {X : RAA} {A D : List Nat} {f : List Nat → List Nat → α} {m : Buf α} (h : X.Is A D f m) (hn : X.nbu = -1) (junk : Nat → α) (q : Nat) (ia : List Nat)
    {R : Odd} {m' : Buf α} (hr : getCell junk q X ia m = .ok (R, m')) : R.cdims = -1 :: D.map Int.ofNat ∧ R.asize = -(D.prod : Int) := by
  rw [getCell, h.cdims, hn] at hr
  simp only [Res.bind_eq_ok] at hr
  obtain ⟨t, _, m1, _, e⟩ := hr
  cases e
  exact ⟨rfl, by show (D.prod : Int) * -1 = _; omega⟩

/-- With more than 30 entries one number is allocated and the copy runs past it. -/
theorem C517_getCell_large_fails {X : RAA} {A D : List Nat} {f : List Nat → List Nat → α} {m : Buf α} (h : X.Is A D f m) (hn : X.nbu = -1) (hD : 31 ≤ D.prod) (junk : Nat → α)
    (q : Nat) (hq : m (q + 1) = none) {ia : List Nat} (hi : InRange ia A) : getCell junk q X ia m = .ub := by
  have e : (oddTensor X.cdims X.nbu).memsize.toNat = 1 := by
    rw [h.cdims, hn]
    have := round_large hD
    show (max (roundup ((D.prod : Int) * -1) 32) 1).toNat = 1
    rw [max_eq_right (by omega)]; rfl
  rw [getCell]
  simp only [e]
  rw [h.ixBase hi, Res.ok_bind, h.asize, stdCopy_short (i := 1) _ _ _ _ (by omega)]
  · rfl
  · rw [raw_off _ _ (by omega), hq]

/-- Up to 30 entries the numbers are copied. -/
theorem C517_getCell_partial {X : RAA} {A D : List Nat} {f : List Nat → List Nat → α} {m : Buf α} (h : X.Is A D f m) (hn : X.nbu = -1) (hD : D.prod ≤ 30) (junk : Nat → α)
    (q : Nat) (hf : Free m q 32) {ia : List Nat} (hi : InRange ia A) :
    ∃ R m', getCell junk q X ia m = .ok (R, m') ∧ ∀ id, InRange id D → m' (q + position D id) = some (f ia id) := by
  have e : (oddTensor X.cdims X.nbu).memsize.toNat = 32 := by
    rw [h.cdims, hn]
    show (max (roundup ((D.prod : Int) * -1) 32) 1).toNat = 32
    rw [round_small hD]; rfl
  have hs : ∀ c, X.Owns c → ¬ (q ≤ c ∧ c < q + 32) := by
    rintro c ⟨o1, o2⟩ ⟨a, b⟩
    rw [h.total] at o2
    have := h.pad (c - X.base.arr) (by omega)
    rw [show X.base.arr + (c - X.base.arr) = c by omega, hf c a b] at this
    exact absurd this (by simp)
  have hc := (h.cellIs hi)
  have arr : (X.cellAt (position A ia)).arr = X.base.arr + position A ia * cells D := by rw [← h.cellstride]; rfl
  obtain ⟨m', h1, h2, _⟩ := stdCopy_ok (allocRaw junk m q 32) (X.base.arr + position A ia * cells D) D.prod q (RA.flat D (f ia) (f [] []))
    (fun i hi => by rw [raw_at _ _ ⟨by omega, by omega⟩]; rfl)
    (fun i h' => by
      have := hc.at (f [] []) h'
      rw [arr] at this
      rw [raw_off _ _ (hs _ (h.cellOwns (position_lt hi) (by rw [← arr]; exact hc.owns h'))), this])
    (fun i h1 j h2 e => hs _ (h.cellOwns (position_lt hi) (by rw [← arr] at e; exact e ▸ hc.owns h2)) ⟨by omega, by omega⟩)
  refine ⟨oddTensor X.cdims X.nbu, m', ?_, fun id hd => by rw [h2 _ (position_lt hd), RA.flat_pos hd]⟩
  rw [getCell]
  simp only [e]
  rw [h.ixBase hi, Res.ok_bind, h.asize, h1, Res.ok_bind]

example : ∃ R m', getCell (fun _ => (9 : Int)) 200 ex [1, 1] (fun c => if c < 128 then some (c : Int) else none) = .ok (R, m') ∧ R.cdims = [-1, 3] ∧ R.asize = -3 ∧ m' 202 = some 98 :=
  ⟨_, _, rfl, rfl, rfl, rfl⟩

/-! ### C518: an array from one tensor -/

/-- It has no tensor. -/
theorem C518_single_fails (junk : Nat → α) (q : Nat) (x : RA) (m : Buf α) {X : RAA} {m' : Buf α} (h : single junk q x m = .ok (X, m')) : X.aasize = 0 ∧ X.adims = [0] := by
  by_cases hx : x.dims = []
  · rw [single, hx] at h; exact absurd h (by simp [raw, RA.array])
  · rw [single, raw_eq (by simp) hx, Res.ok_bind] at h
    simp only [Res.bind_eq_ok] at h
    obtain ⟨m1, _, e⟩ := h
    cases e
    exact ⟨by simp [mk0], rfl⟩

/-- When `x` has more than 32 entries they do not fit. -/
theorem C518_single_large_fails {x : RA} {D : List Nat} {g : List Nat → α} {m : Buf α} (hx : x.Is D g m) (hD : 32 < D.prod) (junk : Nat → α) (q : Nat) (hq : m (q + 32) = none) :
    single junk q x m = .ub := by
  rw [single, hx.dims, raw_eq (by simp) hx.ne, Res.ok_bind]
  simp only
  rw [setCellAt, stdCopy_short (i := 32)]
  · rfl
  · exact hD
  · show allocRaw junk m q (room [0] D) (q + 0 * cells D + 32) = none
    rw [Nat.zero_mul, Nat.add_zero, show room [0] D = 32 by simp [room], raw_off _ _ (by omega), hq]

/-- `add_broadcast` and `subtract_broadcast` never succeed. -/
theorem C518_addBroadcast_fails (op : RA → RA → Buf α → Res (Buf α)) (junk : Nat → α) (q : Nat) (X : RAA) (y : RA) (m m' : Buf α) : addBroadcast op junk q X y m ≠ .ok m' := by
  intro h
  rw [addBroadcast] at h
  simp only [Res.bind_eq_ok] at h
  obtain ⟨⟨Y, m1⟩, h1, h⟩ := h
  have := (C518_single_fails junk q y m h1).1
  simp only [Res.bind_eq_ok] at h
  obtain ⟨_, h2, _⟩ := h
  rw [this] at h2
  exact absurd h2 (by simp [Res.assrt])

example : ∃ X m', single (fun _ => (9 : Int)) 32 ⟨0, [2], [1], 2, 32, 32, -1, false⟩ (Buf.ofList [7, 8]) = .ok (X, m') ∧ m' 33 = some 8 := ⟨_, _, rfl, rfl⟩

/-! ### C519: arrays whose sizes are made with `nbu` -/

/-- The function is not called: the array does not depend on it. -/
theorem C519_ofFn_fails (f g : Nat → Nat → α) (junk : Nat → α) (q : Nat) (A D : List Nat) (m : Buf α) : ofFn f junk q A D (-1) m = ofFn g junk q A D (-1) m := by
  unfold ofFn
  cases e : oddArray A D (-1) with
  | throw => rfl
  | ub => rfl
  | ok X =>
    rw [Res.ok_bind, Res.ok_bind]
    have hz : X.asize.toNat = 0 := by
      rw [oddArray] at e
      simp only [Res.bind_eq_ok] at e
      obtain ⟨_, _, _, _, e⟩ := e
      cases e
      show ((D.prod : Int) * -1).toNat = 0
      omega
    simp only [hz]
    rfl

/-- From 31 to 62 entries the size of a tensor is rounded to 0, and is divided by. -/
theorem C519_zero_fails (f : Nat → Nat → α) (junk : Nat → α) (q : Nat) (A D : List Nat) (m : Buf α) (h1 : 31 ≤ D.prod) (h2 : D.prod ≤ 62) : ofFn f junk q A D (-1) m = .ub := by
  have e : roundup ((D.prod : Int) * -1) 32 = 0 := by
    unfold roundup
    have e : ((D.prod : Int) * -1 - 1).tdiv 32 = -(((D.prod : Int) + 1) / 32) := by
      rw [show (D.prod : Int) * -1 - 1 = -((D.prod : Int) + 1) by omega, Int.neg_tdiv, Int.tdiv_eq_ediv_of_nonneg (by omega)]
    rw [e]
    omega
  rw [ofFn, oddArray]
  cases A with
  | nil => rfl
  | cons a as =>
    rw [decide_eq_true (by simp), show Res.need true = .ok () from rfl, Res.ok_bind]
    simp only [e]
    rfl

theorem odd_cdims {A D : List Nat} {nbu : Int} {Y : OddArr} (h : oddArray A D nbu = .ok Y) : Y.cdims = nbu :: D.map Int.ofNat ∧ Y.asize = D.prod * nbu := by
  rw [oddArray] at h
  simp only [Res.bind_eq_ok] at h
  obtain ⟨_, _, _, _, e⟩ := h
  cases e
  exact ⟨rfl, rfl⟩

/-- The results of `broaden` and `reduce` have tensors with a first axis of size -1. -/
theorem C519_broaden_fails {X : RAA} (hn : X.base.nbu = -1) (ix n : Nat) {Y : OddArr} (h : broadenInto X ix n = .ok Y ∨ reduceInto X ix = .ok Y) :
    Y.cdims = -1 :: X.cdims.map Int.ofNat ∧ Y.asize ≤ 0 := by
  have key : ∀ A, oddArray A X.cdims X.base.nbu = .ok Y → Y.cdims = -1 :: X.cdims.map Int.ofNat ∧ Y.asize ≤ 0 := by
    intro A e
    obtain ⟨a, b⟩ := odd_cdims e
    rw [hn] at a b
    exact ⟨a, by rw [b]; omega⟩
  rcases h with h | h
  · rw [broadenInto] at h
    simp only [Res.bind_eq_ok] at h
    obtain ⟨_, _, h⟩ := h
    exact key _ h
  · rw [reduceInto] at h
    simp only [Res.bind_eq_ok] at h
    obtain ⟨_, _, h⟩ := h
    exact key _ h

example : ∃ X m', ofFn (fun i j => (10 * i + j : Int)) (fun _ => 9) 0 [2] [3] (-1) (fun _ => none) = .ok (X, m') ∧ X.cdims = [-1, 3] ∧ X.aasize = 2 ∧ m' 0 = some 9 ∧ m' 33 = some 9 := by
  refine ⟨_, _, rfl, rfl, rfl, ?_, ?_⟩ <;> rfl

example : ∃ Y, broadenInto ex 1 5 = .ok Y ∧ Y.cdims = [-1, 3] ∧ Y.asize = -3 := ⟨_, rfl, rfl, rfl⟩

/-! ### C520: copies -/

/-- A copy has the same tensors, in memory of its own. -/
theorem C520_copy {X : RAA} {A D : List Nat} {f : List Nat → List Nat → α} {m : Buf α} (h : X.Is A D f m) (junk : Nat → α) (q : Nat) (hf : Free m q (max X.base.memsize 1)) :
    ∃ Y m', copy junk q X m = .ok (Y, m') ∧ Y.base.arr = q ∧ Y.base.isView = false ∧ Y.nbu = X.nbu ∧ Y.Is A D f m' ∧ X.Is A D f m' ∧ (∀ c, Y.Owns c → ¬ X.Owns c) ∧
      ∀ c, ¬ (q ≤ c ∧ c < q + max X.base.memsize 1) → m' c = m c := by
  obtain ⟨g, hg, hgf⟩ := h.flat
  have hr := h.room
  have hmax := Nat.le_max_left X.base.memsize 1
  generalize hM : max X.base.memsize 1 = M at *
  have hs : ∀ c, X.Owns c → ¬ (q ≤ c ∧ c < q + M) := by
    rintro c ⟨o1, o2⟩ ⟨a, b⟩
    rw [h.total] at o2
    have := h.pad (c - X.base.arr) (by omega)
    rw [show X.base.arr + (c - X.base.arr) = c by omega, hf c a b] at this
    exact absurd this (by simp)
  obtain ⟨m', h1, h2, h3⟩ := stdCopy_ok (allocRaw junk m q M) X.base.arr (A.prod * cells D) q (RA.flat (A ++ [cells D]) g (g []))
    (fun i hi => by rw [raw_at _ _ ⟨by omega, by omega⟩]; rfl)
    (fun i hi => by
      rw [raw_off _ _ (hs _ (h.owns hi))]
      exact hg.at (g []) (by rw [flat_prod]; exact hi))
    (fun i h1 j h2 e => hs _ (h.owns h2) ⟨by omega, by omega⟩)
  have hrest : ∀ c, ¬ (q ≤ c ∧ c < q + M) → m' c = m c := fun c hc => by
    rw [h3 c fun i hi e => hc ⟨by omega, by omega⟩, raw_off _ _ hc]
  refine ⟨{ X with base := { X.base with arr := q, nbu := -1, isView := false }, k := none }, m', ?_, rfl, rfl, rfl, ?_, h.keep fun c o => hrest c (hs c o), ?_, hrest⟩
  · rw [copy, RA.copy]
    simp only
    rw [newArr, hM, h.total, h1, Res.ok_bind, Res.ok_bind]
  · exact { h with
      pad := fun c hc => by
        show (m' (q + c)).isSome
        rw [h2 c hc]; rfl
      has := fun ia id a b => by
        show m' (q + _) = _
        rw [h2 _ (lt_of a b), ← flat_pos' a, RA.flat_pos (flat_range a b), hgf ia id a b] }
  · intro c o o'
    have : c < q + X.base.asize := o.2
    rw [h.total] at this
    exact hs c o' ⟨o.1, by omega⟩

/-- A view has the tensors of the array, at the same place. -/
theorem C520_viewOf {X : RAA} {A D : List Nat} {f : List Nat → List Nat → α} {m : Buf α} (h : X.Is A D f m) :
    X.viewOf.Is A D f m ∧ X.viewOf.base.arr = X.base.arr ∧ X.viewOf.base.isView = true := ⟨{ h with }, rfl, rfl⟩

end RAA

end Cnine
