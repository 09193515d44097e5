import Verif.Model.CublasC
import Verif.Props.CublasA
import Verif.Props.CtensorAOps
import Mathlib.Tactic.IntervalCases

/-!
# C509–C514: complex tensors of the old backend on the GPU
-/

namespace Cnine

variable {α : Type}

namespace CA

open RA (cells Free nth prod_ne rv_cell rv_has rv_apart rows_pos sgeam_core)

/-- The real parts change, the imaginary parts stay. -/
theorem re_only {r : CA} {D : List Nat} {F : List Nat → Cx α} {f : List Nat → α} {m m' : Buf α} (hr : r.Is D F m) (h : r.re.Becomes D f m m') :
    r.Becomes D (fun ix => ⟨f ix, (F ix).im⟩) m m' :=
  ⟨hr.of h.1 (hr.im_after h), fun c hc => h.2 c fun ho => hc (.inl ho)⟩

/-- The imaginary parts change, the real parts stay. -/
theorem im_only {r : CA} {D : List Nat} {F : List Nat → Cx α} {f : List Nat → α} {m m' : Buf α} (hr : r.Is D F m) (h : r.im.Becomes D f m m') :
    r.Becomes D (fun ix => ⟨(F ix).re, f ix⟩) m m' :=
  ⟨hr.of (hr.re.keep fun c hc => h.2 c (hr.parts c hc)) h.1, fun c hc => h.2 c fun ho => hc (.inr ho)⟩

theorem becomes_trans {r : CA} {D : List Nat} {F G : List Nat → Cx α} {m m1 m2 : Buf α} (h1 : r.Becomes D F m m1) (h2 : r.Becomes D G m1 m2) : r.Becomes D G m m2 :=
  ⟨h2.1, fun c hc => (h2.2 c hc).trans (h1.2 c hc)⟩

/-- One call of `axpy` into the real parts. -/
theorem axpy_re [Add α] [Mul α] {r : CA} {s : RA} {D : List Nat} {F : List Nat → Cx α} {g : List Nat → α} {m : Buf α} (hr : r.Is D F m) (hs : s.Is D g m)
    (ha : r.re.Apart s ∨ r.re.arr = s.arr) (c : α) :
    ∃ m', saxpy r.asize c s.arr 1 r.arr 1 m = .ok m' ∧ r.Becomes D (fun ix => ⟨(F ix).re + c * g ix, (F ix).im⟩) m m' := by
  have e : r.re.asize = s.asize := by rw [hr.re.asize, hs.asize]
  obtain ⟨m', h1, h2⟩ := RA.C469_scaled hr.re hs ha c
  rw [RA.gAddScaled, decide_eq_true e, Res.assrt_true, Res.ok_bind] at h1
  exact ⟨m', h1, re_only hr h2⟩

/-- One call of `axpy` into the imaginary parts. -/
theorem axpy_im [Add α] [Mul α] {r : CA} {s : RA} {D : List Nat} {F : List Nat → Cx α} {g : List Nat → α} {m : Buf α} (hr : r.Is D F m) (hs : s.Is D g m)
    (ha : r.im.Apart s ∨ r.im.arr = s.arr) (c : α) :
    ∃ m', saxpy r.asize c s.arr 1 r.arrc 1 m = .ok m' ∧ r.Becomes D (fun ix => ⟨(F ix).re, (F ix).im + c * g ix⟩) m m' := by
  have e : r.im.asize = s.asize := by rw [hr.im.asize, hs.asize]
  obtain ⟨m', h1, h2⟩ := RA.C469_scaled hr.im hs ha c
  rw [RA.gAddScaled, decide_eq_true e, Res.assrt_true, Res.ok_bind] at h1
  exact ⟨m', h1, im_only hr h2⟩

/-! ### C509: sums -/

theorem twice [Add α] [Mul α] {r x : CA} {D : List Nat} {F G : List Nat → Cx α} {m : Buf α} (hr : r.Is D F m) (hx : x.Is D G m) (ha : r.Apart x ∨ r.Same x) (a b : α) :
    ∃ m', (do let m ← saxpy r.asize a x.arr 1 r.arr 1 m; saxpy r.asize b x.arrc 1 r.arrc 1 m) = .ok m' ∧
      r.Becomes D (fun ix => ⟨(F ix).re + a * (G ix).re, (F ix).im + b * (G ix).im⟩) m m' := by
  obtain ⟨m1, h1, h2⟩ := axpy_re hr hx.re (meets_re ha) a
  have hx1 : x.im.Is D (fun ix => (G ix).im) m1 := by
    rcases ha with ha | ha
    · exact (hx.stays h2 ha).im
    · have h3 := h2.1.im
      have e : x.im.arr = r.im.arr := ha.2.symm
      exact ⟨hx.ne, hx.dims, hx.strides, hx.asize, hx.room, fun ix hi => by
        rw [e, h3.has ix hi]
        have k1 := hr.im.has ix hi
        have k2 := hx.im.has ix hi
        rw [e, k1] at k2
        exact k2⟩
  obtain ⟨m2, h3, h4⟩ := axpy_im h2.1 hx1 (meets_im ha) b
  refine ⟨m2, ?_, becomes_trans h2 h4⟩
  rw [show x.arr = x.re.arr from rfl, h1, Res.ok_bind]
  exact h3

theorem twice' [Add α] [Mul α] {r x : CA} {D : List Nat} {F G : List Nat → Cx α} {m : Buf α} (hr : r.Is D F m) (hx : x.Is D G m) (ha : r.Apart x ∨ r.Same x) (a b : α) :
    ∃ m', gAddTwice a b r x m = .ok m' ∧ r.Becomes D (fun ix => ⟨(F ix).re + a * (G ix).re, (F ix).im + b * (G ix).im⟩) m m' := by
  rw [gAddTwice, decide_eq_true (by rw [hr.asize, hx.asize]), Res.assrt_true, Res.ok_bind]
  exact twice hr hx ha a b

theorem C509_add [Ring α] {r x : CA} {D : List Nat} {F G : List Nat → Cx α} {m : Buf α} (hr : r.Is D F m) (hx : x.Is D G m) (ha : r.Apart x ∨ r.Same x) :
    ∃ m', r.gAdd x m = .ok m' ∧ r.Becomes D (fun ix => F ix + G ix) m m' := by
  obtain ⟨m', h1, h2⟩ := twice' hr hx ha 1 1
  exact ⟨m', h1, becomes_congr h2 fun ix _ => by simp only [one_mul, Cx.add_def]⟩

theorem C509_addScaled [CommRing α] {r x : CA} {D : List Nat} {F G : List Nat → Cx α} {m : Buf α} (hr : r.Is D F m) (hx : x.Is D G m) (ha : r.Apart x ∨ r.Same x) (c : α) :
    ∃ m', r.gAddScaled x c m = .ok m' ∧ r.Becomes D (fun ix => F ix + ⟨c, 0⟩ * G ix) m m' := by
  obtain ⟨m', h1, h2⟩ := twice' hr hx ha c c
  exact ⟨m', h1, becomes_congr h2 fun ix _ => by simp [Cx.add_def, Cx.mul_def]⟩

theorem C509_addConj [Ring α] {r x : CA} {D : List Nat} {F G : List Nat → Cx α} {m : Buf α} (hr : r.Is D F m) (hx : x.Is D G m) (ha : r.Apart x ∨ r.Same x) :
    ∃ m', r.gAddConj x m = .ok m' ∧ r.Becomes D (fun ix => F ix + ⟨(G ix).re, -(G ix).im⟩) m m' := by
  obtain ⟨m', h1, h2⟩ := twice' hr hx ha 1 (-1)
  exact ⟨m', h1, becomes_congr h2 fun ix _ => by simp [Cx.add_def]⟩

theorem C509_subtract [Ring α] {r x : CA} {D : List Nat} {F G : List Nat → Cx α} {m : Buf α} (hr : r.Is D F m) (hx : x.Is D G m) (ha : r.Apart x ∨ r.Same x) :
    ∃ m', r.gSubtract x m = .ok m' ∧ r.Becomes D (fun ix => ⟨(F ix).re - (G ix).re, (F ix).im - (G ix).im⟩) m m' := by
  obtain ⟨m', h1, h2⟩ := twice' hr hx ha (-1) (-1)
  exact ⟨m', h1, becomes_congr h2 fun ix _ => by simp [sub_eq_add_neg]⟩

/-- Other totals are refused. -/
theorem C509_refuses [Add α] [Mul α] [Neg α] {r x : CA} (h : r.asize ≠ x.asize) (a b : α) (c : Cx α) (m : Buf α) :
    gAddTwice a b r x m = .throw ∧ gAddC r x c m = .throw ∧ gAddConjC r x c m = .throw := by
  simp only [gAddTwice, gAddC, gAddConjC, decide_eq_false h, Res.assrt_false]
  exact ⟨rfl, rfl, rfl⟩

/-- Four calls, two into each part. -/
theorem four [Add α] [Mul α] {r x : CA} {D : List Nat} {F G : List Nat → Cx α} {m : Buf α} (hr : r.Is D F m) (hx : x.Is D G m) (ha : r.Apart x) (a b c d : α) :
    ∃ m', (do
        let m ← saxpy r.asize a x.arr 1 r.arr 1 m
        let m ← saxpy r.asize b x.arrc 1 r.arr 1 m
        let m ← saxpy r.asize c x.arr 1 r.arrc 1 m
        saxpy r.asize d x.arrc 1 r.arrc 1 m) = .ok m' ∧
      r.Becomes D (fun ix => ⟨(F ix).re + a * (G ix).re + b * (G ix).im, (F ix).im + c * (G ix).re + d * (G ix).im⟩) m m' := by
  obtain ⟨p1, p2, p3, p4⟩ := ha.parts
  obtain ⟨m1, h1, k1⟩ := axpy_re hr hx.re (.inl p1) a
  obtain ⟨m2, h2, k2⟩ := axpy_re k1.1 (hx.stays k1 ha).im (.inl p2) b
  have k2' := becomes_trans k1 k2
  obtain ⟨m3, h3, k3⟩ := axpy_im k2.1 (hx.stays k2' ha).re (.inl p3) c
  have k3' := becomes_trans k2' k3
  obtain ⟨m4, h4, k4⟩ := axpy_im k3.1 (hx.stays k3' ha).im (.inl p4) d
  refine ⟨m4, ?_, becomes_trans k3' k4⟩
  rw [show x.arr = x.re.arr from rfl, show x.arrc = x.im.arr from rfl, h1, Res.ok_bind, h2, Res.ok_bind, h3, Res.ok_bind]
  exact h4

theorem C509_addC [CommRing α] {r x : CA} {D : List Nat} {F G : List Nat → Cx α} {m : Buf α} (hr : r.Is D F m) (hx : x.Is D G m) (ha : r.Apart x) (c : Cx α) :
    ∃ m', r.gAddC x c m = .ok m' ∧ r.Becomes D (fun ix => F ix + c * G ix) m m' := by
  obtain ⟨m', h1, h2⟩ := four hr hx ha c.re (-c.im) c.im c.re
  refine ⟨m', ?_, becomes_congr h2 fun ix _ => by simp only [Cx.add_def, Cx.mul_def, Cx.mk.injEq]; constructor <;> ring⟩
  rw [gAddC, decide_eq_true (by rw [hr.asize, hx.asize]), Res.assrt_true, Res.ok_bind]
  exact h1

theorem C509_addSum [Ring α] {r : CA} {D : List Nat} {F : List Nat → Cx α} {m : Buf α} (hr : r.Is D F m) (v : List (CA × (List Nat → Cx α)))
    (hv : ∀ p ∈ v, p.1.Is D p.2 m ∧ r.Apart p.1) :
    ∃ m', r.gAddSum (v.map Prod.fst) m = .ok m' ∧ r.Becomes D (fun ix => F ix + (v.map fun p => p.2 ix).sum) m m' := by
  induction v generalizing F m with
  | nil => exact ⟨m, rfl, becomes_congr ⟨hr, fun _ _ => rfl⟩ fun ix _ => by simp⟩
  | cons p v ih =>
    obtain ⟨hp, hap⟩ := hv p List.mem_cons_self
    obtain ⟨m1, h1, h2⟩ := twice hr hp (.inl hap) 1 1
    obtain ⟨m2, h3, h4⟩ := ih h2.1 fun p' hp' => ⟨(hv p' (List.mem_cons_of_mem _ hp')).1.stays h2 (hv p' (List.mem_cons_of_mem _ hp')).2, (hv p' (List.mem_cons_of_mem _ hp')).2⟩
    refine ⟨m2, ?_, becomes_congr (becomes_trans h2 h4) fun ix _ => ?_⟩
    · rw [gAddSum, List.map_cons, Res.forM_cons]
      rw [decide_eq_true (by rw [hr.asize, hp.asize]), Res.assrt_true, Res.ok_bind, h1, Res.ok_bind]
      exact h3
    · rw [List.map_cons, List.sum_cons, ← add_assoc]
      congr 1
      simp only [one_mul, Cx.add_def]

theorem C509_addPair [Ring α] {r x y : CA} {D : List Nat} {F G H : List Nat → Cx α} {m : Buf α} (hr : r.Is D F m) (hx : x.Is D G m) (hy : y.Is D H m)
    (ha : r.Apart x ∨ r.Same x) (hb : r.Apart y) :
    (∃ m', gAddPair 1 r x y m = .ok m' ∧ r.Becomes D (fun ix => F ix + (G ix + H ix)) m m') ∧
    ∃ m', gAddPair (-1) r x y m = .ok m' ∧ r.Becomes D (fun ix => F ix + ⟨(G ix).re - (H ix).re, (G ix).im - (H ix).im⟩) m m' := by
  have key : ∀ c : α, ∃ m', gAddPair c r x y m = .ok m' ∧ r.Becomes D
      (fun ix => ⟨(F ix).re + 1 * (G ix).re + c * (H ix).re, (F ix).im + 1 * (G ix).im + c * (H ix).im⟩) m m' := by
    intro c
    obtain ⟨m1, h1, h2⟩ := twice hr hx ha 1 1
    obtain ⟨m2, h3, h4⟩ := twice h2.1 (hy.stays h2 hb) (.inl hb) c c
    refine ⟨m2, ?_, becomes_trans h2 h4⟩
    rw [gAddPair, decide_eq_true (by rw [hr.asize, hx.asize]), Res.assrt_true, Res.ok_bind, decide_eq_true (by rw [hr.asize, hy.asize]), Res.assrt_true, Res.ok_bind]
    cases e : saxpy r.asize 1 x.arr 1 r.arr 1 m with
    | ok ma =>
      rw [e, Res.ok_bind] at h1
      rw [Res.ok_bind, h1, Res.ok_bind]
      exact h3
    | throw => rw [e] at h1; cases h1
    | ub => rw [e] at h1; cases h1
  constructor
  · obtain ⟨m', h1, h2⟩ := key 1
    exact ⟨m', h1, becomes_congr h2 fun ix _ => by simp [Cx.add_def, add_assoc]⟩
  · obtain ⟨m', h1, h2⟩ := key (-1)
    exact ⟨m', h1, becomes_congr h2 fun ix _ => by simp [Cx.add_def, add_assoc, sub_eq_add_neg]⟩

theorem zero_mk0 [Zero α] {D : List Nat} (h : D ≠ []) (junk : Nat → α) (q : Nat) (m : Buf α) :
    ∃ m', zero junk q D m = .ok (mk0 q D, m') ∧ (mk0 q D).Is D (fun _ => ⟨0, 0⟩) m' ∧ ∀ c, ¬ (q ≤ c ∧ c < q + 2 * cells D) → m' c = m c := by
  obtain ⟨m', h1, h2, h3⟩ := fill_block h junk q m
  refine ⟨m', ?_, (zero_fresh h h2 h3).2.2.1, h3⟩
  rw [zero, raw_ok h, Res.ok_bind]
  simp only
  rw [h1, Res.ok_bind]

theorem C509_conj [Ring α] {x : CA} {D : List Nat} {G : List Nat → Cx α} {m : Buf α} (hx : x.Is D G m) (junk : Nat → α) (q : Nat) (hf : Free m q (2 * cells D)) :
    ∃ y m', gConj junk q x m = .ok (y, m') ∧ y.Fresh q D (fun ix => ⟨(G ix).re, -(G ix).im⟩) m m' ∧ x.Is D G m' := by
  obtain ⟨m1, h1, h2, h3⟩ := zero_mk0 (α := α) hx.ne junk q m
  have ha := hx.apart_mk0 hf
  have hx1 : x.Is D G m1 := hx.keep fun c hc => h3 c (hx.not_free hf hc)
  obtain ⟨m2, h4, h5⟩ := twice h2 hx1 (.inl ha) 1 (-1)
  have h6 := becomes_congr h5 (G := fun ix => ⟨(G ix).re, -(G ix).im⟩) fun ix _ => by simp
  refine ⟨mk0 q D, m2, ?_, ⟨rfl, rfl, h6.1, fun c hc => ?_⟩, hx1.stays h6 ha⟩
  · rw [gConj, hx.dims, h1, Res.ok_bind]
    simp only
    rw [hx.asize]
    have h7 := congrArg (fun r : Res (Buf α) => r >>= fun m => Res.ok (mk0 q D, m)) h4
    rw [show (mk0 q D).asize = D.prod from h2.asize] at h7
    cases e : saxpy D.prod 1 x.arr 1 (mk0 q D).arr 1 m1 with
    | ok ma => rw [e] at h7; exact h7
    | throw => rw [e] at h7; cases h7
    | ub => rw [e] at h7; cases h7
  · rw [h6.2 c fun ho => hc (owns_mk0 ho), h3 c hc]

example : ∃ m', exR.gAddC exX ⟨2, 1⟩ exM = .ok m' ∧ exR.get [1] m' = .ok ⟨1 + (2 * 65 - 97), 33 + (65 + 2 * 97)⟩ := ⟨_, rfl, rfl⟩
example : ∃ y m', gConj (fun _ => (9 : Int)) 200 exR exM = .ok (y, m') ∧ y.get [2] m' = .ok ⟨2, -34⟩ := ⟨_, _, rfl, rfl⟩

/-! ### C510, C511: what fails -/

/-- `add_conj(x,c)` on the GPU adds `c` times `x`, not the conjugate of anything. -/
theorem C510_partial [CommRing α] {r x : CA} {D : List Nat} {F G : List Nat → Cx α} {m : Buf α} (hr : r.Is D F m) (hx : x.Is D G m) (ha : r.Apart x) (c : Cx α) :
    ∃ m', r.gAddConjC x c m = .ok m' ∧ r.Becomes D (fun ix => F ix + c * G ix) m m' := by
  obtain ⟨m', h1, h2⟩ := four hr hx ha c.re (-c.im) (- -c.im) c.re
  refine ⟨m', ?_, becomes_congr h2 fun ix _ => by simp only [Cx.add_def, Cx.mul_def, Cx.mk.injEq]; constructor <;> ring⟩
  rw [gAddConjC, decide_eq_true (by rw [hr.asize, hx.asize]), Res.assrt_true, Res.ok_bind]
  exact h1

/-- `i` with the factor 1: the sum with the conjugate of `i` is `-i`, that with `i` times the conjugate of 1 is `i`; for `i` with the factor `i` the CPU gives `i·(-i) = 1`, the
GPU `-1`, and `i` times the conjugate of `i` is 1. -/
theorem C510_fails : ∃ m' m'', (⟨64, 96, [1], [1], 1, 64, 32, -1, false⟩ : CA).addConjC exOne ⟨0, 1⟩
      (fun c => if c = 0 ∨ c = 64 ∨ c = 96 then some (0 : Int) else if c = 32 then some 1 else none) = .ok m' ∧
    (⟨64, 96, [1], [1], 1, 64, 32, -1, false⟩ : CA).gAddConjC exOne ⟨0, 1⟩
      (fun c => if c = 0 ∨ c = 64 ∨ c = 96 then some (0 : Int) else if c = 32 then some 1 else none) = .ok m'' ∧ m' 64 = some 1 ∧ m'' 64 = some (-1) :=
  ⟨_, _, rfl, rfl, rfl, rfl⟩

/-- Multiplication in place on the GPU: the old numbers are added, and the imaginary part is computed from the new real part. -/
theorem C511_partial [CommRing α] {x : CA} {D : List Nat} {G : List Nat → Cx α} {m : Buf α} (hx : x.Is D G m) (c : Cx α) :
    ∃ m', x.gInplaceTimes c m = .ok m' ∧
      x.Becomes D (fun ix => G ix + c * G ix + ⟨0, c.im * (c * G ix).re⟩) m m' := by
  obtain ⟨m1, h1, k1⟩ := axpy_re hx hx.re (.inr rfl) c.re
  obtain ⟨m2, h2, k2⟩ := axpy_re k1.1 k1.1.im (.inl hx.parts) (-c.im)
  obtain ⟨m3, h3, k3⟩ := axpy_im k2.1 k2.1.im (.inr rfl) c.re
  obtain ⟨m4, h4, k4⟩ := axpy_im k3.1 k3.1.re (.inl hx.parts') c.im
  refine ⟨m4, ?_, becomes_congr (becomes_trans k1 (becomes_trans k2 (becomes_trans k3 k4))) fun ix _ => by
    simp only [Cx.add_def, Cx.mul_def, Cx.mk.injEq]; constructor <;> ring⟩
  rw [gInplaceTimes, show saxpy x.asize c.re x.arr 1 x.arr 1 m = _ from h1, Res.ok_bind, show saxpy x.asize (-c.im) x.arrc 1 x.arr 1 m1 = _ from h2, Res.ok_bind,
    show saxpy x.asize c.re x.arrc 1 x.arrc 1 m2 = _ from h3, Res.ok_bind]
  exact h4

/-- The product of 1 and `i`: the CPU gives `i`, the GPU `1+i`. -/
theorem C511_fails : ∃ m' m'', exOne.inplaceTimes ⟨0, 1⟩ (fun c => if c = 0 then some (1 : Int) else if c = 32 then some 0 else none) = .ok m' ∧
    exOne.gInplaceTimes ⟨0, 1⟩ (fun c => if c = 0 then some (1 : Int) else if c = 32 then some 0 else none) = .ok m'' ∧ m' 0 = some 0 ∧ m'' 0 = some 1 :=
  ⟨_, _, rfl, rfl, rfl, rfl⟩

/-! ### C512: products -/

/-- The sum over all indices by their numbers. -/
theorem sum_nth [AddCommMonoid α] (C : List Nat) (φ : List Nat → α) : ((List.range C.prod).map fun l => φ (nth C l)).sum = ((allIndices C).map φ).sum := by
  rw [← map_position_allIndices, List.map_map]
  congr 1
  exact List.map_congr_left fun ix hi => by
    show φ (nth C (position C ix)) = φ ix
    rw [nth_pos (mem_allIndices.1 hi)]

/-- From the entries of a matrix to those of a tensor. -/
theorem of_view {r : RA} {A B : List Nat} {f : List Nat → α} {m m' : Buf α} {X : Nat → Nat → α} (hr : r.Is (A ++ B) f m)
    (h : (⟨r.arr, A.prod, B.prod, B.prod, 1⟩ : RV2).Becomes m m' X) {w : List Nat → α}
    (hw : ∀ ia ib, InRange ia A → InRange ib B → X (position A ia) (position B ib) = w (ia ++ ib)) : r.Becomes (A ++ B) w m m' := by
  refine ⟨⟨hr.ne, hr.dims, hr.strides, hr.asize, hr.room, fun ix hi => ?_⟩, fun c hc => h.2 c fun i hi j hj e => hc ?_⟩
  · obtain ⟨ia, ib, rfl, -, a1, a2⟩ := inRange_split2 hi
    have := h.1 _ (position_lt a1) _ (position_lt a2)
    rw [rv_cell, hw ia ib a1 a2] at this
    rw [GT.position_app a1.length]
    exact this
  · rw [e, rv_cell]
    exact own_pair hr hi hj

/-- What one call of `gemm` has to do: add `al` times a real product. -/
def Step [CommRing α] (ta tb : BlasOp) (ly lx : Nat) (A B C X Y : List Nat) (P Q : List Nat → List Nat → List Nat) : Prop :=
  ∀ (al : α) (r x y : RA) (f g h : List Nat → α) (m : Buf α), r.Is (A ++ B) f m → x.Is X g m → y.Is Y h m → r.Apart x → r.Apart y →
    ∃ m', sgemm al ⟨ta, tb, B.prod, A.prod, C.prod, y.arr, ly, 0, x.arr, lx, 0, r.arr, B.prod, 0, 1⟩ m = .ok m' ∧
      r.Becomes (A ++ B) (fun ix => f ix + al * ((allIndices C).map fun ic => g (P (ix.take A.length) ic) * h (Q ic (ix.drop A.length))).sum) m m'

theorem step_AA [CommRing α] {A B C : List Nat} (pB : 0 < B.prod) (pC : 0 < C.prod) :
    Step (α := α) .N .N B.prod C.prod A B C (A ++ C) (C ++ B) (fun ia ic => ia ++ ic) (fun ic ib => ic ++ ib) := by
  intro al r x y f g h m hr hx hy hax hay
  obtain ⟨m', h1, h2⟩ := gemm_al al .N .N C.prod ⟨r.arr, A.prod, B.prod, B.prod, 1⟩ ⟨x.arr, A.prod, C.prod, C.prod, 1⟩ ⟨y.arr, C.prod, B.prod, B.prod, 1⟩ (rows_pos pB) (rows_pos pC)
    (rows_pos pB) (rv_apart hr hx hax) (rv_apart hr hy hay) (fun l j => (j, l)) (fun i l => (l, i)) (by rw [if_pos rfl]; dsimp only; omega)
    (by rw [if_pos rfl]; dsimp only; omega) (fun i hi l hl => ⟨hl, hi, by simp only [BlasOp.pos]; omega⟩)
    (fun j hj l hl => ⟨hj, hl, by simp only [BlasOp.pos]; omega⟩) m _ _ _ (rv_has hr) (rv_has hx) (rv_has hy)
  refine ⟨m', h1, of_view hr h2 fun ia ib a1 a2 => ?_⟩
  rw [← a1.length, List.take_left, List.drop_left, ← sum_nth]
  simp only [nth_pos a1, nth_pos a2]

theorem step_AT [CommRing α] {A B C : List Nat} (pB : 0 < B.prod) (pC : 0 < C.prod) :
    Step (α := α) .T .N C.prod C.prod A B C (A ++ C) (B ++ C) (fun ia ic => ia ++ ic) (fun ic ib => ib ++ ic) := by
  intro al r x y f g h m hr hx hy hax hay
  obtain ⟨m', h1, h2⟩ := gemm_al al .T .N C.prod ⟨r.arr, A.prod, B.prod, B.prod, 1⟩ ⟨x.arr, A.prod, C.prod, C.prod, 1⟩ ⟨y.arr, B.prod, C.prod, C.prod, 1⟩ (rows_pos pB) (rows_pos pC)
    (rows_pos pC) (rv_apart hr hx hax) (rv_apart hr hy hay) (fun l j => (j, l)) (fun i l => (i, l)) (by rw [if_neg (by decide)]; dsimp only; omega)
    (by rw [if_pos rfl]; dsimp only; omega) (fun i hi l hl => ⟨hi, hl, by simp only [BlasOp.pos]; omega⟩)
    (fun j hj l hl => ⟨hj, hl, by simp only [BlasOp.pos]; omega⟩) m _ _ _ (rv_has hr) (rv_has hx) (rv_has hy)
  refine ⟨m', h1, of_view hr h2 fun ia ib a1 a2 => ?_⟩
  rw [← a1.length, List.take_left, List.drop_left, ← sum_nth]
  simp only [nth_pos a1, nth_pos a2]

theorem step_TA [CommRing α] {A B C : List Nat} (pA : 0 < A.prod) (pB : 0 < B.prod) :
    Step (α := α) .N .T B.prod A.prod A B C (C ++ A) (C ++ B) (fun ia ic => ic ++ ia) (fun ic ib => ic ++ ib) := by
  intro al r x y f g h m hr hx hy hax hay
  obtain ⟨m', h1, h2⟩ := gemm_al al .N .T C.prod ⟨r.arr, A.prod, B.prod, B.prod, 1⟩ ⟨x.arr, C.prod, A.prod, A.prod, 1⟩ ⟨y.arr, C.prod, B.prod, B.prod, 1⟩ (rows_pos pB) (rows_pos pA)
    (rows_pos pB) (rv_apart hr hx hax) (rv_apart hr hy hay) (fun l j => (l, j)) (fun i l => (l, i)) (by rw [if_pos rfl]; dsimp only; omega)
    (by rw [if_neg (by decide)]; dsimp only; omega) (fun i hi l hl => ⟨hl, hi, by simp only [BlasOp.pos]; omega⟩)
    (fun j hj l hl => ⟨hl, hj, by simp only [BlasOp.pos]; omega⟩) m _ _ _ (rv_has hr) (rv_has hx) (rv_has hy)
  refine ⟨m', h1, of_view hr h2 fun ia ib a1 a2 => ?_⟩
  rw [← a1.length, List.take_left, List.drop_left, ← sum_nth]
  simp only [nth_pos a1, nth_pos a2]

/-- Four real sums make a complex sum. -/
theorem sel_sum [CommRing α] {sel : Nat} (hsel : sel ≤ 3) (a : Cx α) {ι : Type} (l : List ι) (u v : ι → Cx α) :
    (⟨a.re + 1 * (l.map fun i => (u i).re * (v i).re).sum + (alphas sel).1 * (l.map fun i => (u i).im * (v i).im).sum,
      a.im + (alphas sel).2.1 * (l.map fun i => (u i).re * (v i).im).sum + (alphas sel).2.2 * (l.map fun i => (u i).im * (v i).re).sum⟩ : Cx α) =
    a + (l.map fun i => selMul sel (u i) (v i)).sum := by
  induction l generalizing a with
  | nil => simp
  | cons i l ih =>
    rw [show ((i :: l).map fun i => selMul sel (u i) (v i)).sum = selMul sel (u i) (v i) + (l.map fun i => selMul sel (u i) (v i)).sum from List.sum_cons, ← add_assoc, ← ih]
    have : sel = 0 ∨ sel = 1 ∨ sel = 2 ∨ sel = 3 := by omega
    simp only [List.map_cons, List.sum_cons]
    rcases this with rfl | rfl | rfl | rfl <;> simp [alphas, selMul, Cx.add_def, Cx.mul_def] <;> constructor <;> ring

theorem gemms_ok [CommRing α] {sel : Nat} (hsel : sel ≤ 3) {ta tb : BlasOp} {ly lx : Nat} {A B C X Y : List Nat} {P Q : List Nat → List Nat → List Nat}
    (hs : Step (α := α) ta tb ly lx A B C X Y P Q) {r x y : CA} {F G H : List Nat → Cx α} {m : Buf α} (hr : r.Is (A ++ B) F m) (hx : x.Is X G m) (hy : y.Is Y H m)
    (hax : r.Apart x) (hay : r.Apart y) :
    ∃ m', gemms sel ta tb B.prod A.prod C.prod ly lx r x y m = .ok m' ∧
      r.Becomes (A ++ B) (fun ix => F ix + ((allIndices C).map fun ic => selMul sel (G (P (ix.take A.length) ic)) (H (Q ic (ix.drop A.length)))).sum) m m' := by
  obtain ⟨p1, p2, p3, p4⟩ := hax.parts
  obtain ⟨q1, q2, q3, q4⟩ := hay.parts
  obtain ⟨m1, h1, k1⟩ := hs 1 _ _ _ _ _ _ m hr.re hx.re hy.re p1 q1
  have k1 := re_only hr k1
  obtain ⟨m2, h2, k2⟩ := hs (alphas sel).1 _ _ _ _ _ _ m1 k1.1.re (hx.stays k1 hax).im (hy.stays k1 hay).im p2 q2
  have k2 := becomes_trans k1 (re_only k1.1 k2)
  obtain ⟨m3, h3, k3⟩ := hs (alphas sel).2.1 _ _ _ _ _ _ m2 k2.1.im (hx.stays k2 hax).re (hy.stays k2 hay).im p3 q4
  have k3 := becomes_trans k2 (im_only k2.1 k3)
  obtain ⟨m4, h4, k4⟩ := hs (alphas sel).2.2 _ _ _ _ _ _ m3 k3.1.im (hx.stays k3 hax).im (hy.stays k3 hay).re p4 q3
  have k4 := becomes_trans k3 (im_only k3.1 k4)
  refine ⟨m4, ?_, becomes_congr k4 fun ix _ => sel_sum hsel (F ix) _ _ _⟩
  rw [gemms]
  simp only
  rw [show sgemm 1 ⟨ta, tb, B.prod, A.prod, C.prod, y.arr, ly, 0, x.arr, lx, 0, r.arr, B.prod, 0, 1⟩ m = _ from h1, Res.ok_bind,
    show sgemm (alphas sel).1 ⟨ta, tb, B.prod, A.prod, C.prod, y.arrc, ly, 0, x.arrc, lx, 0, r.arr, B.prod, 0, 1⟩ m1 = _ from h2, Res.ok_bind,
    show sgemm (alphas sel).2.1 ⟨ta, tb, B.prod, A.prod, C.prod, y.arrc, ly, 0, x.arr, lx, 0, r.arrc, B.prod, 0, 1⟩ m2 = _ from h3, Res.ok_bind]
  exact h4

theorem C512_AA [CommRing α] {sel : Nat} (hsel : sel ≤ 3) {r x y : CA} {A B C : List Nat} {F G H : List Nat → Cx α} {m : Buf α} (hr : r.Is (A ++ B) F m) (hx : x.Is (A ++ C) G m)
    (hy : y.Is (C ++ B) H m) (hax : r.Apart x) (hay : r.Apart y) :
    ∃ m', gMprodAA sel r x y C.length C.length m = .ok m' ∧
      r.Becomes (A ++ B) (fun ix => F ix + ((allIndices C).map fun ic => selMul sel (G (ix.take A.length ++ ic)) (H (ic ++ ix.drop A.length))).sum) m m' := by
  rw [gMprodAA, hx.asize, hy.asize]
  split
  · next e =>
    rw [List.prod_append, List.prod_append, Nat.mul_comm C.prod] at e
    exact ⟨m, rfl, cempty hr (fun ix ic => selMul sel (G (ix.take A.length ++ ic)) (H (ic ++ ix.drop A.length))) e⟩
  · next e =>
    rw [not_or] at e
    have hl : x.dims.length - C.length = A.length := by rw [hx.dims]; simp
    obtain ⟨pA, pC⟩ := prod_ne e.1
    obtain ⟨-, pB⟩ := prod_ne e.2
    rw [decide_eq_true (by rw [hx.dims]; simp), Res.assrt_true, Res.ok_bind, hl, show x.re.combinedSize A.length x.dims.length = _ from combined_back hx.re e.1, Res.ok_bind,
      combined_front hy.re e.2, Res.ok_bind,
      decide_eq_true rfl, Res.assrt_true, Res.ok_bind, combined_front hx.re e.1, Res.ok_bind, show y.re.combinedSize C.length y.dims.length = _ from combined_back hy.re e.2, Res.ok_bind,
      decide_eq_true (by rw [hr.asize, List.prod_append]), Res.assrt_true, Res.ok_bind, if_neg (by rw [hr.asize, List.prod_append]; exact (Nat.mul_pos pA pB).ne')]
    exact gemms_ok hsel (step_AA pB pC) hr hx hy hax hay

theorem C512_AT [CommRing α] {sel : Nat} (hsel : sel ≤ 3) {r x y : CA} {A B C : List Nat} {F G H : List Nat → Cx α} {m : Buf α} (hr : r.Is (A ++ B) F m) (hx : x.Is (A ++ C) G m)
    (hy : y.Is (B ++ C) H m) (hax : r.Apart x) (hay : r.Apart y) :
    ∃ m', gMprodAT sel r x y C.length C.length m = .ok m' ∧
      r.Becomes (A ++ B) (fun ix => F ix + ((allIndices C).map fun ic => selMul sel (G (ix.take A.length ++ ic)) (H (ix.drop A.length ++ ic))).sum) m m' := by
  rw [gMprodAT, hx.asize, hy.asize]
  split
  · next e =>
    rw [List.prod_append, List.prod_append] at e
    exact ⟨m, rfl, cempty hr (fun ix ic => selMul sel (G (ix.take A.length ++ ic)) (H (ix.drop A.length ++ ic))) e⟩
  · next e =>
    rw [not_or] at e
    have hl : x.dims.length - C.length = A.length := by rw [hx.dims]; simp
    have hl' : y.dims.length - C.length = B.length := by rw [hy.dims]; simp
    obtain ⟨pA, pC⟩ := prod_ne e.1
    obtain ⟨pB, -⟩ := prod_ne e.2
    rw [decide_eq_true (by rw [hx.dims]; simp), Res.assrt_true, Res.ok_bind, hl, show x.re.combinedSize A.length x.dims.length = _ from combined_back hx.re e.1, Res.ok_bind,
      decide_eq_true (by rw [hy.dims]; simp), Res.assrt_true, Res.ok_bind,
      hl', show y.re.combinedSize B.length y.dims.length = _ from combined_back hy.re e.2, Res.ok_bind,
      decide_eq_true rfl, Res.assrt_true, Res.ok_bind, combined_front hx.re e.1, Res.ok_bind, combined_front hy.re e.2, Res.ok_bind,
      decide_eq_true (by rw [hr.asize, List.prod_append]), Res.assrt_true, Res.ok_bind, if_neg (by rw [hr.asize, List.prod_append]; exact (Nat.mul_pos pA pB).ne')]
    exact gemms_ok hsel (step_AT pB pC) hr hx hy hax hay

theorem C512_TA [CommRing α] {sel : Nat} (hsel : sel ≤ 3) {r x y : CA} {A B C : List Nat} {F G H : List Nat → Cx α} {m : Buf α} (hr : r.Is (A ++ B) F m) (hx : x.Is (C ++ A) G m)
    (hy : y.Is (C ++ B) H m) (hax : r.Apart x) (hay : r.Apart y) :
    ∃ m', gMprodTA sel r x y C.length C.length m = .ok m' ∧
      r.Becomes (A ++ B) (fun ix => F ix + ((allIndices C).map fun ic => selMul sel (G (ic ++ ix.take A.length)) (H (ic ++ ix.drop A.length))).sum) m m' := by
  rw [gMprodTA, hx.asize, hy.asize]
  split
  · next e =>
    rw [List.prod_append, List.prod_append, Nat.mul_comm C.prod, Nat.mul_comm C.prod] at e
    exact ⟨m, rfl, cempty hr (fun ix ic => selMul sel (G (ic ++ ix.take A.length)) (H (ic ++ ix.drop A.length))) e⟩
  · next e =>
    rw [not_or] at e
    obtain ⟨pC, pA⟩ := prod_ne e.1
    obtain ⟨-, pB⟩ := prod_ne e.2
    rw [combined_front hx.re e.1, Res.ok_bind, combined_front hy.re e.2, Res.ok_bind, decide_eq_true rfl, Res.assrt_true, Res.ok_bind,
      show x.re.combinedSize C.length x.dims.length = _ from combined_back hx.re e.1, Res.ok_bind,
      show y.re.combinedSize C.length y.dims.length = _ from combined_back hy.re e.2, Res.ok_bind,
      decide_eq_true (by rw [hr.asize, List.prod_append]), Res.assrt_true, Res.ok_bind, if_neg (by rw [hr.asize, List.prod_append]; exact (Nat.mul_pos pA pB).ne')]
    exact gemms_ok hsel (step_TA pA pB) hr hx hy hax hay

example : ∃ m', gMprodAT 2 ⟨0, 32, [1, 1], [1, 1], 1, 64, 32, -1, false⟩ ⟨64, 96, [1, 2], [2, 1], 2, 64, 32, -1, false⟩ ⟨128, 160, [1, 2], [2, 1], 2, 64, 32, -1, false⟩ 1 1
    (fun c => some (c : Int)) = .ok m' ∧ m' 0 = some (64 * 128 + 96 * 160 + (65 * 129 + 97 * 161)) ∧ m' 32 = some (32 + (96 * 128 - 64 * 160) + (97 * 129 - 65 * 161)) := ⟨_, rfl, rfl, rfl⟩
example : exMat.Is ([2] ++ [3]) (fun ix => ⟨(position [2, 3] ix : Int), 100 + (position [2, 3] ix : Int)⟩) exMatM := by
  refine ⟨by simp, rfl, rfl, rfl, by decide, fun ix hi => ?_, fun i j hi hj => by simp [exMat]; simp at hi; omega⟩
  have h : position [2, 3] ix < 6 := by simpa using position_lt hi
  show exMatM (0 + position [2, 3] ix) = _ ∧ exMatM (32 + position [2, 3] ix) = _
  generalize position [2, 3] ix = p at h
  interval_cases p <;> exact ⟨rfl, rfl⟩

/-! ### C513, C514: transposes -/

/-- `add_transp` and `add_herm` on the GPU. -/
theorem gaddTransp [Ring α] (be : α) {r x : CA} {A B : List Nat} {F G : List Nat → Cx α} {m : Buf α} (hr : r.Is (B ++ A) F m) (hx : x.Is (A ++ B) G m)
    (hD : (A ++ B).prod ≠ 0) (ha : r.Apart x) :
    ∃ m', gAddTranspWith be r x A.length m = .ok m' ∧ r.Becomes (B ++ A)
      (fun ix => F ix + ⟨(G (ix.drop B.length ++ ix.take B.length)).re, be * (G (ix.drop B.length ++ ix.take B.length)).im⟩) m m' := by
  have hA : A.prod ≠ 0 := fun e => hD (by rw [List.prod_append, e, Nat.zero_mul])
  have hI : x.asize / A.prod = B.prod := by rw [hx.asize, List.prod_append, Nat.mul_comm]; exact Nat.mul_div_cancel _ (Nat.pos_of_ne_zero hA)
  obtain ⟨p1, p2, p3, p4⟩ := ha.parts
  obtain ⟨m1, h1, k1⟩ := sgeam_core 1 1 hr.re hx.re hD p1
  have k1 := re_only hr k1
  obtain ⟨m2, h2, k2⟩ := sgeam_core be 1 k1.1.im (hx.stays k1 ha).im hD p4
  have k2 := becomes_trans k1 (im_only k1.1 k2)
  refine ⟨m2, ?_, becomes_congr k2 fun ix _ => by simp only [Cx.add_def, Cx.mk.injEq, one_mul]; exact ⟨add_comm _ _, add_comm _ _⟩⟩
  rw [gAddTranspWith, decide_eq_true (by rw [hr.asize, hx.asize]; simp [Nat.mul_comm]), Res.assrt_true, Res.ok_bind, combined_front hx.re hD, Res.ok_bind,
    show Res.need (decide (A.prod ≠ 0)) = .ok () by rw [decide_eq_true hA]; rfl, Res.ok_bind]
  simp only [hI]
  rw [show sgeam 1 1 A.prod B.prod x.arr B.prod r.arr A.prod m = _ from h1, Res.ok_bind]
  exact h2

theorem C513_addTransp [Ring α] {r x : CA} {A B : List Nat} {F G : List Nat → Cx α} {m : Buf α} (hr : r.Is (B ++ A) F m) (hx : x.Is (A ++ B) G m)
    (hD : (A ++ B).prod ≠ 0) (ha : r.Apart x) :
    ∃ m', gAddTranspWith 1 r x A.length m = .ok m' ∧ r.Becomes (B ++ A) (fun ix => F ix + G (ix.drop B.length ++ ix.take B.length)) m m' := by
  obtain ⟨m', h1, h2⟩ := gaddTransp 1 hr hx hD ha
  exact ⟨m', h1, becomes_congr h2 fun ix _ => by rw [one_mul]⟩

theorem C513_addHerm [Ring α] {r x : CA} {A B : List Nat} {F G : List Nat → Cx α} {m : Buf α} (hr : r.Is (B ++ A) F m) (hx : x.Is (A ++ B) G m)
    (hD : (A ++ B).prod ≠ 0) (ha : r.Apart x) :
    ∃ m', gAddTranspWith (-1) r x A.length m = .ok m' ∧ r.Becomes (B ++ A)
      (fun ix => F ix + ⟨(G (ix.drop B.length ++ ix.take B.length)).re, -(G (ix.drop B.length ++ ix.take B.length)).im⟩) m m' := by
  obtain ⟨m', h1, h2⟩ := gaddTransp (-1) hr hx hD ha
  exact ⟨m', h1, becomes_congr h2 fun ix _ => by rw [neg_one_mul]⟩

theorem C513_refuses [Ring α] {r x : CA} (h : r.asize ≠ x.asize) (be : α) (n : Nat) (m : Buf α) : gAddTranspWith be r x n m = .throw := by
  rw [gAddTranspWith, decide_eq_false h, Res.assrt_false]; rfl

/-- `transp` and `herm` on the GPU, when the two halves of the axes have the same sizes.  Missing: all other shapes. -/
theorem C514_square_partial [Ring α] (be : α) {x : CA} {A : List Nat} {G : List Nat → Cx α} {m : Buf α} (hx : x.Is (A ++ A) G m) (hD : (A ++ A).prod ≠ 0) (junk : Nat → α)
    (q : Nat) (hf : Free m q (2 * cells (A ++ A))) : ∃ y m', gTranspWith be junk q x A.length m = .ok (y, m') ∧
      y.Fresh q (A ++ A) (fun ix => ⟨(G (ix.drop A.length ++ ix.take A.length)).re, be * (G (ix.drop A.length ++ ix.take A.length)).im⟩) m m' ∧ x.Is (A ++ A) G m' := by
  have hA : A.prod ≠ 0 := fun e => hD (by rw [List.prod_append, e, Nat.zero_mul])
  have hI : x.asize / A.prod = A.prod := by rw [hx.asize, List.prod_append, Nat.mul_comm]; exact Nat.mul_div_cancel _ (Nat.pos_of_ne_zero hA)
  obtain ⟨m0, h0, hz, hr⟩ := zero_mk0 (α := α) hx.ne junk q m
  have ha := hx.apart_mk0 hf
  have hx0 : x.Is (A ++ A) G m0 := hx.keep fun c hc => hr c (hx.not_free hf hc)
  obtain ⟨p1, p2, p3, p4⟩ := ha.parts
  obtain ⟨m1, h1, k1⟩ := sgeam_core 1 0 hz.re hx0.re hD p1
  have k1 := re_only hz k1
  obtain ⟨m2, h2, k2⟩ := sgeam_core be 0 k1.1.im (hx0.stays k1 ha).im hD p4
  have k2 := becomes_trans k1 (im_only k1.1 k2)
  have k3 := becomes_congr k2 (G := fun ix => ⟨(G (ix.drop A.length ++ ix.take A.length)).re, be * (G (ix.drop A.length ++ ix.take A.length)).im⟩) fun ix _ => by simp
  refine ⟨mk0 q (A ++ A), m2, ?_, ⟨rfl, rfl, k3.1, fun c hc => ?_⟩, hx0.stays k3 ha⟩
  · rw [gTranspWith, combined_front hx.re hD, Res.ok_bind, show Res.need (decide (A.prod ≠ 0)) = .ok () by rw [decide_eq_true hA]; rfl, Res.ok_bind]
    simp only [hI]
    rw [hx.dims, h0, Res.ok_bind]
    simp only
    rw [show sgeam 1 0 A.prod A.prod x.arr A.prod (mk0 q (A ++ A)).arr A.prod m0 = _ from h1, Res.ok_bind,
      show sgeam be 0 A.prod A.prod x.arrc A.prod (mk0 q (A ++ A)).arrc A.prod m1 = _ from h2, Res.ok_bind]
  · rw [k3.2 c fun ho => hc (owns_mk0 ho), hr c hc]

/-- A 2×3 matrix: the CPU returns a 3×2 matrix, the GPU a 2×3 matrix whose entry (0,1) is the entry (1,0) of the argument. -/
theorem C514_shape_fails : ∃ y m' z m'', herm (fun _ => (9 : Int)) 64 exMat 1 exMatM = .ok (y, m') ∧ gTranspWith (-1) (fun _ => (9 : Int)) 64 exMat 1 exMatM = .ok (z, m'') ∧
    y.dims = [3, 2] ∧ z.dims = [2, 3] ∧ y.get [2, 0] m' = .ok ⟨2, -102⟩ ∧ z.get [0, 1] m'' = .ok ⟨3, -103⟩ ∧ z.get [2, 0] m'' ≠ .ok ⟨2, -102⟩ :=
  ⟨_, _, _, _, rfl, rfl, rfl, rfl, rfl, rfl, by decide⟩

end CA

end Cnine
