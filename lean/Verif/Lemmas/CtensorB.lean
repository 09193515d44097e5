import Verif.Spec.CtensorB
import Verif.Lemmas.CView
import Verif.Lemmas.RtensorArrayA
import Verif.Props.RtensorA

/-! Complex tensors in one array: loops over the array. -/

namespace Cnine

variable {α : Type}

namespace CB

open RA (Free flat)

theorem Is.strides' {x : CB} {D : List Nat} {F : List Nat → Cx α} {m : Buf α} (h : x.Is D F m) : x.strides = rmStridesFrom 2 D := by
  rw [h.strides, RAA.high_eq]

theorem Is.mk' {x : CB} {D : List Nat} {F G : List Nat → Cx α} {m m' : Buf α} (h : x.Is D F m)
    (hg : ∀ ix, InRange ix D → m' (x.arr + 2 * position D ix) = some (G ix).re ∧ m' (x.arr + (2 * position D ix + 1)) = some (G ix).im) : x.Is D G m' :=
  ⟨h.ne, h.dims, h.strides, h.asize, h.memsize, h.coffs, hg⟩

theorem Is.owns {x : CB} {D : List Nat} {F : List Nat → Cx α} {m : Buf α} (h : x.Is D F m) {c : Nat} (hc : c < 2 * D.prod) : x.Owns (x.arr + c) :=
  ⟨Nat.le_add_right _ _, by rw [h.asize]; omega⟩

theorem Is.not_owns {x : CB} {D : List Nat} {F : List Nat → Cx α} {m : Buf α} (h : x.Is D F m) {c i : Nat} (hc : ¬ x.Owns c) (hi : i < 2 * D.prod) : c ≠ x.arr + i := by
  rintro rfl
  exact hc (h.owns hi)

theorem Is.keep {x : CB} {D : List Nat} {F : List Nat → Cx α} {m m' : Buf α} (h : x.Is D F m) (hm : ∀ c, x.Owns c → m' c = m c) : x.Is D F m' :=
  h.mk' fun ix hi => by
    have := position_lt hi
    rw [hm _ (h.owns (by omega)), hm _ (h.owns (by omega))]
    exact h.has ix hi

theorem becomes_congr {x : CB} {D : List Nat} {F G : List Nat → Cx α} {m m' : Buf α} (h : x.Becomes D F m m') (e : ∀ ix, InRange ix D → F ix = G ix) :
    x.Becomes D G m m' :=
  ⟨h.1.mk' fun ix hi => by rw [← e ix hi]; exact h.1.has ix hi, h.2⟩

theorem Is.stays {r x : CB} {D E : List Nat} {F G : List Nat → Cx α} {m m' : Buf α} (hx : x.Is E G m) (h : r.Becomes D F m m') (ha : r.Apart x) : x.Is E G m' :=
  hx.keep fun c hc => h.2 c fun k => ha c k hc

/-- The number at a place of the array. -/
def part (D : List Nat) (F : List Nat → Cx α) (d : Cx α) (i : Nat) : α := if i % 2 = 0 then (flat D F d (i / 2)).re else (flat D F d (i / 2)).im

theorem part_re {D : List Nat} {F : List Nat → Cx α} {d : Cx α} (i : Nat) : part D F d (2 * i) = (flat D F d i).re := by
  rw [part, if_pos (by omega), show 2 * i / 2 = i by omega]

theorem part_im {D : List Nat} {F : List Nat → Cx α} {d : Cx α} (i : Nat) : part D F d (2 * i + 1) = (flat D F d i).im := by
  rw [part, if_neg (by omega), show (2 * i + 1) / 2 = i by omega]

theorem Is.at {x : CB} {D : List Nat} {F : List Nat → Cx α} {m : Buf α} (h : x.Is D F m) (d : Cx α) {i : Nat} (hi : i < D.prod) :
    m (x.arr + 2 * i) = some (flat D F d i).re ∧ m (x.arr + (2 * i + 1)) = some (flat D F d i).im := by
  obtain ⟨ix, h1, rfl⟩ := GT.surj hi
  rw [RA.flat_pos h1]
  exact h.has ix h1

theorem Is.part_at {x : CB} {D : List Nat} {F : List Nat → Cx α} {m : Buf α} (h : x.Is D F m) (d : Cx α) {i : Nat} (hi : i < 2 * D.prod) :
    m (x.arr + i) = some (part D F d i) := by
  rcases Nat.mod_two_eq_zero_or_one i with e | e
  · obtain ⟨j, rfl⟩ : ∃ j, i = 2 * j := ⟨i / 2, by omega⟩
    rw [part_re]; exact (h.at d (by omega)).1
  · obtain ⟨j, rfl⟩ : ∃ j, i = 2 * j + 1 := ⟨i / 2, by omega⟩
    rw [part_im]; exact (h.at d (by omega)).2

theorem Is.some_at {x : CB} {D : List Nat} {F : List Nat → Cx α} {m : Buf α} (h : x.Is D F m) {i : Nat} (hi : i < 2 * D.prod) : (m (x.arr + i)).isSome := by
  obtain ⟨ix, h1, h2⟩ := GT.surj (dims := D) (i := i / 2) (by omega)
  rw [h.part_at (F ix) hi]; rfl

/-- A loop over the whole array. -/
theorem mem_run {x : CB} {D : List Nat} {F : List Nat → Cx α} {m : Buf α} (h : x.Is D F m) (new : Nat → α) (step : Nat → Buf α → Res (Buf α))
    (hs : ∀ i, i < 2 * D.prod → ∀ m' : Buf α, (∀ c, (∀ j, j < 2 * D.prod → j ≠ i → c ≠ x.arr + j) → m' c = m c) → step i m' = m'.write (x.arr + i) (new i)) :
    ∃ m', loop (2 * D.prod) m step = .ok m' ∧ x.Becomes D (fun ix => ⟨new (2 * position D ix), new (2 * position D ix + 1)⟩) m m' := by
  obtain ⟨m', h1, h2, h3⟩ := loop_cells (2 * D.prod) (fun i => x.arr + i) new step m (fun i _ j _ e => by omega) (fun i hi => h.some_at hi) hs
  refine ⟨m', h1, h.mk' fun ix hi => ?_, fun c hc => h3 c fun i hi => h.not_owns hc hi⟩
  have := position_lt hi
  exact ⟨h2 _ (by omega), h2 _ (by omega)⟩

/-- A loop over the real parts (`o` = 0) or over the imaginary parts (`o` = 1). -/
theorem part_run {x : CB} {D : List Nat} {F : List Nat → Cx α} {m : Buf α} (h : x.Is D F m) {o : Nat} (ho : o < 2) (new : Nat → α) (step : Nat → Buf α → Res (Buf α))
    (hs : ∀ i, i < D.prod → ∀ m' : Buf α, (∀ c, (∀ j, j < D.prod → j ≠ i → c ≠ x.arr + (2 * j + o)) → m' c = m c) → step i m' = m'.write (x.arr + (2 * i + o)) (new i)) :
    ∃ m', loop D.prod m step = .ok m' ∧
      x.Becomes D (fun ix => if o = 0 then ⟨new (position D ix), (F ix).im⟩ else ⟨(F ix).re, new (position D ix)⟩) m m' := by
  obtain ⟨m', h1, h2, h3⟩ := loop_cells D.prod (fun i => x.arr + (2 * i + o)) new step m (fun i _ j _ e => by omega) (fun i hi => h.some_at (by omega)) hs
  refine ⟨m', h1, h.mk' fun ix hi => ?_, fun c hc => h3 c fun i hi => h.not_owns hc (by omega)⟩
  have hp := position_lt hi
  have k := h.has ix hi
  have := h2 _ hp
  rcases (show o = 0 ∨ o = 1 by omega) with rfl | rfl
  · rw [if_pos rfl]
    refine ⟨this, ?_⟩
    rw [h3 _ fun i hi e => by omega]; exact k.2
  · rw [if_neg (by omega)]
    refine ⟨?_, this⟩
    rw [h3 _ fun i hi e => by omega]; exact k.1

/-- A loop over all numbers that stores one number in each round. -/
theorem all_run {x : CB} {D : List Nat} {F : List Nat → Cx α} {m : Buf α} (h : x.Is D F m) (new : Nat → Cx α) (step : Nat → Buf α → Res (Buf α))
    (hs : ∀ i, i < D.prod → ∀ m' : Buf α, (∀ c, (∀ j, j < D.prod → j ≠ i → c ≠ x.arr + 2 * j ∧ c ≠ x.arr + (2 * j + 1)) → m' c = m c) →
      step i m' = setC (x.arr + 2 * i) (x.arr + (2 * i + 1)) (new i) m') :
    ∃ m', loop D.prod m step = .ok m' ∧ x.Becomes D (fun ix => new (position D ix)) m m' := by
  obtain ⟨m', h1, h2, h3⟩ := ccells_run (List.range D.prod) (fun i => x.arr + 2 * i) (fun i => x.arr + (2 * i + 1)) new (fun m i => step i m) m List.nodup_range
    (fun i _ j _ e => by omega) (fun i _ j _ e => by omega) (fun i _ j _ => by omega)
    (fun i hi => ⟨h.some_at (by have := List.mem_range.1 hi; omega), h.some_at (by have := List.mem_range.1 hi; omega)⟩)
    (fun i hi m' hm => hs i (List.mem_range.1 hi) m' fun c hc => hm c fun j hj => hc j (List.mem_range.1 hj))
  refine ⟨m', h1, h.mk' fun ix hi => h2 _ (List.mem_range.2 (position_lt hi)), fun c hc => h3 c fun i hi => ?_⟩
  have := List.mem_range.1 hi
  exact ⟨h.not_owns hc (by omega), h.not_owns hc (by omega)⟩

/-! ### New tensors -/

/-- The tensor that `noalloc` makes. -/
def mk0 (q : Nat) (D : List Nat) (v : Bool) : CB := ⟨q, D, rmStridesFrom 2 D, D.prod, 2 * D.prod, 1, v⟩

theorem noalloc_ok {D : List Nat} (h : D ≠ []) (q : Nat) (v : Bool) : noalloc q D v = .ok (mk0 q D v) := by
  cases D with
  | nil => exact absurd rfl h
  | cons d ds =>
    have e : (rmStridesFrom 2 (d :: ds)).headD 0 * d = 2 * (d :: ds).prod := by
      rw [rmStridesFrom_cons, List.headD_cons, List.prod_cons]; ring
    simp only [noalloc, mk0, e]
    rw [show 2 * (d :: ds).prod / 2 = (d :: ds).prod by omega]

theorem mk0_is {D : List Nat} (h : D ≠ []) {F : List Nat → Cx α} {m : Buf α} (q : Nat) (v : Bool)
    (hm : ∀ ix, InRange ix D → m (q + 2 * position D ix) = some (F ix).re ∧ m (q + (2 * position D ix + 1)) = some (F ix).im) : (mk0 q D v).Is D F m :=
  ⟨h, rfl, (RAA.high_eq D 2).symm, rfl, rfl, rfl, hm⟩

theorem raw_ok {D : List Nat} (h : D ≠ []) (junk : Nat → α) (q : Nat) (m : Buf α) :
    raw junk q D m = .ok (mk0 q D false, allocRaw junk m q (2 * D.prod)) := by
  rw [raw, noalloc_ok h, Res.ok_bind]; rfl

theorem raw_is {D : List Nat} (h : D ≠ []) (junk : Nat → α) (q : Nat) (v : Bool) (m : Buf α) :
    (mk0 q D v).Is D (fun ix => ⟨junk (q + 2 * position D ix), junk (q + (2 * position D ix + 1))⟩) (allocRaw junk m q (2 * D.prod)) :=
  mk0_is h q v fun ix hi => by
    have := position_lt hi
    exact ⟨RA.raw_at _ _ ⟨by omega, by omega⟩, RA.raw_at _ _ ⟨by omega, by omega⟩⟩

theorem fresh_of {D : List Nat} {q : Nat} {F : List Nat → Cx α} {junk : Nat → α} {m m' : Buf α}
    (h : (mk0 q D false).Becomes D F (allocRaw junk m q (2 * D.prod)) m') : (mk0 q D false).Fresh q D F m m' :=
  ⟨rfl, rfl, h.1, fun c hc => by rw [h.2 c fun k => hc k, RA.raw_off _ _ hc]⟩

/-- Allocated cells are not in free memory. -/
theorem Is.not_free {x : CB} {D : List Nat} {F : List Nat → Cx α} {m : Buf α} (h : x.Is D F m) {q n c : Nat} (hf : Free m q n) (hc : x.Owns c) :
    ¬ (q ≤ c ∧ c < q + n) := by
  rintro ⟨h1, h2⟩
  obtain ⟨i, rfl⟩ : ∃ i, c = x.arr + i := ⟨c - x.arr, by have := hc.1; omega⟩
  have := h.some_at (i := i) (by have := hc.2; rw [h.asize] at this; omega)
  rw [hf _ h1 h2] at this
  exact absurd this (by simp)

theorem Is.old {x : CB} {D : List Nat} {F : List Nat → Cx α} {m : Buf α} (h : x.Is D F m) {q n : Nat} (hf : Free m q n) (junk : Nat → α) :
    x.Is D F (allocRaw junk m q n) := h.keep fun _ hc => RA.raw_off _ _ (h.not_free hf hc)

theorem Is.apart_mk0 {x : CB} {D E : List Nat} {F : List Nat → Cx α} {m : Buf α} (h : x.Is D F m) {q : Nat} {v : Bool} (hf : Free m q (2 * E.prod)) :
    (mk0 q E v).Apart x := fun _ hc hx => h.not_free hf hx hc

theorem Is.get_at {x : CB} {D : List Nat} {F : List Nat → Cx α} {m : Buf α} (h : x.Is D F m) (d : Cx α) {i : Nat} (hi : i < D.prod) :
    getC (x.arr + 2 * i) (x.arr + (2 * i + 1)) m = .ok (flat D F d i) := getC_ok (h.at d hi).1 (h.at d hi).2

/-- A part of an operand in the middle of a loop: the operand is apart, or is the tensor itself. -/
theorem operand {r x : CB} {D : List Nat} {F G : List Nat → Cx α} {m m' : Buf α} (hr : r.Is D F m) (hx : x.Is D G m) (ha : r.Apart x ∨ r.arr = x.arr) {i : Nat}
    (hi : i < 2 * D.prod) (hm : ∀ c, (∀ j, j < 2 * D.prod → j ≠ i → c ≠ r.arr + j) → m' c = m c) : m' (x.arr + i) = m (x.arr + i) := by
  refine hm _ fun j hj hne e => ?_
  rcases ha with ha | ha
  · exact ha _ (hr.owns hj) (e ▸ hx.owns hi)
  · omega

/-- Combining the arrays of two tensors, place by place. -/
theorem zipMem_ok (op : α → α → α) {r x : CB} {D : List Nat} {F G : List Nat → Cx α} {m : Buf α} (hr : r.Is D F m) (hx : x.Is D G m) (ha : r.Apart x ∨ r.arr = x.arr) :
    ∃ m', zipMem op r x m = .ok m' ∧ r.Becomes D (fun ix => ⟨op (F ix).re (G ix).re, op (F ix).im (G ix).im⟩) m m' := by
  by_cases hD : D.prod = 0
  · refine ⟨m, by rw [zipMem, hr.memsize, hD]; rfl, hr.mk' fun ix hi => ?_, fun _ _ => rfl⟩
    have := position_lt hi
    omega
  obtain ⟨ix0, _, _⟩ := GT.surj (dims := D) (i := 0) (by omega)
  obtain ⟨m', h1, h2⟩ := mem_run hr (fun i => op (part D F (F ix0) i) (part D G (G ix0) i)) (fun i m => updCell op m (r.arr + i) (x.arr + i)) (by
    intro i hi m' hm
    refine updCell_ok ?_ ?_
    · rw [hm _ fun j hj hne e => by omega, hr.part_at (F ix0) hi]
    · rw [operand hr hx ha hi hm, hx.part_at (G ix0) hi])
  refine ⟨m', by rw [zipMem, hr.memsize]; exact h1, becomes_congr h2 fun ix hi => ?_⟩
  simp only [part_re, part_im, RA.flat_pos hi]

/-- The offset of an index. -/
theorem Is.ix {x : CB} {D : List Nat} {F : List Nat → Cx α} {m : Buf α} (h : x.Is D F m) {ix : List Nat} (hi : InRange ix D) :
    RAA.atIx ix x.strides = .ok (2 * position D ix) := by
  have := RAA.ix_ok ix (rmStridesFrom 2 D) [] (by rw [rmStridesFrom_length, hi.length])
  rw [List.append_nil] at this
  rw [h.strides', this, dot_rmStridesFrom _ _ _ hi.length]

theorem Is.ix2 {x : CB} {a b : Nat} {F : List Nat → Cx α} {m : Buf α} (h : x.Is [a, b] F m) (i j : Nat) : x.offs2 i j = .ok (2 * position [a, b] [i, j]) := by
  have : rmStridesFrom 2 [a, b] = [2 * b, 2] := by simp [rmStridesFrom, Nat.mul_comm]
  rw [offs2, h.strides', this]
  show Res.ok _ = _
  simp only [position]
  congr 1
  simp only [List.prod_cons, List.prod_nil]
  ring

theorem Is.get2 {x : CB} {a b : Nat} {F : List Nat → Cx α} {m : Buf α} (h : x.Is [a, b] F m) {i j : Nat} (hi : i < a) (hj : j < b) : x.get2 i j m = .ok (F [i, j]) := by
  have k := h.has [i, j] (.cons hi (.cons hj .nil))
  rw [CB.get2, h.ix2, Res.ok_bind, h.coffs, Nat.add_assoc]
  exact getC_ok k.1 k.2

end CB

end Cnine
