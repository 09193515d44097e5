import Verif.Lemmas.Scalar
import Mathlib.Algebra.Ring.Int.Defs

/-!
# C599–C603: scalars and bundles of scalars: construction, copies, access, sums and products
-/

namespace Cnine

variable {α β γ : Type}

namespace Scal

/-! ### C599: construction and copies -/

theorem C599_single_partial (v : β) : (single v).Holds none fun _ => v := ⟨rfl, rfl⟩

theorem C599_filled_partial (d : Option β) (n : Option Nat) (v : β) : ∃ x, filled d n v = .ok x ∧ x.Holds n fun _ => v :=
  raw_put d n _ _ (fun _ => rfl) fun _ _ _ _ => rfl

/-- A function of every number. -/
theorem C599_map_partial (d : Option γ) (fn : β → γ) {x : Scal β} {n : Option Nat} {F : Nat → β} (h : x.Holds n F) : ∃ y, x.map d fn = .ok y ∧ y.Holds n fun i => fn (F i) :=
  map_ok d fn h

theorem C599_copy_partial (d : Option β) {x : Scal β} {n : Option Nat} {F : Nat → β} (h : x.Holds n F) : ∃ y, x.copy d = .ok y ∧ y.Holds n F := by
  cases n with
  | none => exact ⟨⟨none, x.val, none⟩, by rw [copy, h.1], rfl, h.2⟩
  | some k =>
    obtain ⟨y, h1, h2⟩ := map_ok d id h
    exact ⟨y, by rw [copy, h.1]; exact h1, h2⟩

/-- Assignment: whatever the target held before. -/
theorem C599_assign_partial (d : Option β) (r : Scal β) {x : Scal β} {n : Option Nat} {F : Nat → β} (h : x.Holds n F) : ∃ y, assign d r x = .ok y ∧ y.Holds n F := by
  obtain ⟨y, h1, h2⟩ := C599_copy_partial d h
  refine ⟨{ y with val := if x.nbu = none then y.val else r.val }, ?_, h2.1, ?_⟩
  · rw [assign, h1, Res.ok_bind]
  · cases n with
    | none => show (if x.nbu = none then y.val else r.val) = _; rw [if_pos h.1]; exact h2.2
    | some k => exact h2.2

theorem C599_move_partial (r : Scal β) {x : Scal β} {n : Option Nat} {F : Nat → β} (h : x.Holds n F) : (move r x).1.Holds n F := by
  cases n with
  | none => rw [move, h.1]; exact ⟨rfl, h.2⟩
  | some k => rw [move, h.1]; exact ⟨rfl, h.2⟩

/-- From a vector: one element gives a number, any other length a bundle. -/
theorem C599_vector_partial [Inhabited β] (d : Option β) (v : List β) : (ofVec d v).Holds (if v.length = 1 then none else some v.length) fun i => v.getD i default := by
  match v with
  | [a] => exact ⟨rfl, rfl⟩
  | [] => exact ⟨rfl, [], rfl, rfl, fun i hi => absurd hi (Nat.not_lt_zero i)⟩
  | a :: b :: t =>
    have e : (if (a :: b :: t).length = 1 then none else some (a :: b :: t).length) = some (a :: b :: t).length := if_neg (by simp)
    rw [e]
    refine ⟨rfl, (a :: b :: t).map some, rfl, by simp, fun i hi => ?_⟩
    show _ = some (some ((a :: b :: t).getD i default))
    rw [List.getElem?_map, List.getElem?_eq_getElem hi, Option.map_some, List.getD_eq_getElem?_getD, List.getElem?_eq_getElem hi, Option.getD_some]

/-- To a vector: the numbers in order. -/
theorem C599_to_vector_partial {x : Scal β} {n : Option Nat} {F : Nat → β} (h : x.Holds n F) : x.toVec = .ok ((List.range (n.getD 1)).map F) := by
  cases n with
  | none =>
    rw [toVec, h.1]
    simp only
    rw [h.rdVal, Res.ok_bind]
    rfl
  | some k =>
    have main : ∀ j, j ≤ k → loop j [] (fun i l => x.rdArr i >>= fun a => Res.ok (l ++ [a])) = .ok ((List.range j).map F) := by
      intro j
      induction j with
      | zero => exact fun _ => rfl
      | succ j ih =>
        intro hj
        rw [RA.loop_snoc, ih (by omega), Res.ok_bind, h.rdArr (show j < k by omega), Res.ok_bind, List.range_succ, List.map_append]
        rfl
    rw [toVec, h.1]
    exact main k (Nat.le_refl k)

/-- A vector comes back as it was. -/
theorem C599_round_trip_partial [Inhabited β] (d : Option β) (v : List β) : (ofVec d v).toVec = .ok v := by
  rw [C599_to_vector_partial (C599_vector_partial d v)]
  congr 1
  have e : ((if v.length = 1 then none else some v.length : Option Nat).getD 1) = v.length := by
    by_cases h : v.length = 1
    · rw [if_pos h, h]; rfl
    · rw [if_neg h]; rfl
  rw [e]
  refine List.ext_getElem (by simp) fun i h1 h2 => ?_
  rw [List.getElem_map, List.getElem_range, List.getD_eq_getElem?_getD, List.getElem?_eq_getElem h2, Option.getD_some]

example : (ofVec none [3, 1, 4]).toVec = .ok [3, 1, 4] ∧ (ofVec none [3]).toVec = .ok [3] := by decide

/-- Assigning a bundle that is not empty to itself is undefined. -/
theorem C599_self_fails (d : Option β) {x : Scal β} {k : Nat} {F : Nat → β} (h : x.Holds (some k) F) (hk : 0 < k) : x.assignSelf d = .ub := by
  rw [assignSelf, h.1]
  simp only
  rw [if_neg (by omega)]

example : (ofVec none [3, 1, 4]).assignSelf none = .ub := by decide

/-- A single random complex number of a bundle constructor has no imaginary part; the constructor without `nbu` gives one. -/
theorem C599_random_fails (f : Nat → Int) (h : f 1 ≠ 0) : ∃ x, gaussianC f none = .ok x ∧ x.val ≠ (gaussianC1 f).val := by
  refine ⟨_, rfl, fun e => h ?_⟩
  have := congrArg Cx.im (Option.some.inj e)
  exact this.symm

example : (gaussianC (fun i => (i : Int) + 1) none).bind (fun x => .ok x.val) = .ok (some ⟨1, 0⟩) ∧ (gaussianC1 (fun i => (i : Int) + 1)).val = some ⟨1, 2⟩ := by decide

/-- The random bundle takes the random numbers in pairs. -/
theorem C599_random_partial [Zero α] (f : Nat → α) (k : Nat) : ∃ x, gaussianC f (some k) = .ok x ∧ x.Holds (some k) fun i => ⟨f (2 * i), f (2 * i + 1)⟩ :=
  raw_put _ _ _ _ (fun e => absurd e (by simp)) fun _ _ _ _ => rfl

/-! ### C600: access, comparison, zero -/

theorem C600_value {x : Scal β} {n : Option Nat} {F : Nat → β} (h : x.Holds n F) : x.value = if n = none then .ok (F 0) else .throw := by
  cases n with
  | none => rw [value, decide_eq_true h.1, Res.assrt_true, Res.ok_bind, h.rdVal, if_pos rfl]
  | some k =>
    rw [value, decide_eq_false (by rw [h.1]; simp), if_neg (by simp)]
    rfl

theorem C600_set_value {x : Scal β} {n : Option Nat} {F : Nat → β} (h : x.Holds n F) (v : β) :
    (n = none → ∃ y, x.setValue v = .ok y ∧ y.Holds none fun _ => v) ∧ (n ≠ none → x.setValue v = .throw) := by
  constructor
  · intro e
    exact ⟨{ x with val := some v }, by rw [setValue, decide_eq_true (h.1.trans e), Res.assrt_true, Res.ok_bind], h.1.trans e, rfl⟩
  · intro e
    rw [setValue, decide_eq_false (by rw [h.1]; exact e)]
    rfl

theorem C600_zero [Zero β] {x : Scal β} {n : Option Nat} {F : Nat → β} (h : x.Holds n F) : ∃ y, x.setZero = .ok y ∧ y.Holds n fun _ => 0 :=
  put_ok h _ _ (fun _ => rfl) fun _ _ _ _ => rfl

/-- Comparison: the answer is whether all numbers agree; different shapes are refused. -/
theorem C600_eq [DecidableEq β] {x y : Scal β} {n m : Option Nat} {F G : Nat → β} (hx : x.Holds n F) (hy : y.Holds m G) :
    (n ≠ m → x.eq y = .throw) ∧ (n = m → ∃ b, x.eq y = .ok b ∧ (b = true ↔ ∀ i, i < n.getD 1 → F i = G i)) := by
  constructor
  · intro e
    rw [eq, decide_eq_false (by rw [hx.1, hy.1]; exact e)]
    rfl
  · intro e
    subst e
    rw [eq, decide_eq_true (hx.1.trans hy.1.symm), Res.assrt_true, Res.ok_bind]
    cases n with
    | none =>
      refine ⟨decide (F 0 = G 0), ?_, ?_⟩
      · rw [eqBody, hx.1]
        simp only
        rw [hx.rdVal, hy.rdVal, Res.ok_bind, Res.ok_bind]
      · rw [decide_eq_true_iff]
        exact ⟨fun e i hi => by rw [Nat.lt_one_iff.1 hi]; exact e, fun e => e 0 Nat.one_pos⟩
    | some k =>
      have main : ∀ j, j ≤ k → ∃ b, loop j true (fun i (t : Bool) => if t then x.rdArr i >>= fun a => y.rdArr i >>= fun b => Res.ok (decide (a = b)) else .ok false) = .ok b ∧
          (b = true ↔ ∀ i, i < j → F i = G i) := by
        intro j
        induction j with
        | zero => exact fun _ => ⟨true, rfl, by simp⟩
        | succ j ih =>
          intro hj
          obtain ⟨b, h1, h2⟩ := ih (by omega)
          rw [RA.loop_snoc, h1, Res.ok_bind]
          cases b with
          | false =>
            refine ⟨false, rfl, iff_of_false (by simp) fun e => ?_⟩
            exact absurd (h2.2 fun i hi => e i (by omega)) (by simp)
          | true =>
            refine ⟨decide (F j = G j), ?_, ?_⟩
            · rw [if_pos rfl, hx.rdArr (show j < k by omega), hy.rdArr (show j < k by omega), Res.ok_bind, Res.ok_bind]
            · rw [decide_eq_true_iff]
              refine ⟨fun e i hi => ?_, fun e => e j (by omega)⟩
              by_cases hij : i = j
              · rw [hij]; exact e
              · exact h2.1 rfl i (by omega)
      obtain ⟨b, h1, h2⟩ := main k (Nat.le_refl k)
      refine ⟨b, ?_, h2⟩
      rw [eqBody, hx.1]
      exact h1

example : (ofVec none [3, 1, 4]).eq (ofVec none [3, 1, 4]) = .ok true ∧ (ofVec none [3, 1, 4]).eq (ofVec none [3, 1, 5]) = .ok false ∧
    (ofVec none [3, 1, 4]).eq (ofVec none [3]) = .throw ∧ (ofVec none [3, 1]).value = .throw ∧ (ofVec none [3]).value = .ok 3 := by decide

/-! ### C601: real scalars, number by number -/

section Checked

variable {r x y : Scal β} {n p q : Option Nat} {R X Y : Nat → β}

theorem C601_add_partial [Add β] (hr : r.Holds n R) (hx : x.Holds p X) :
    (n ≠ p → r.add x = .throw) ∧ (n = p → ∃ s, r.add x = .ok s ∧ s.Holds n fun i => R i + X i) :=
  ⟨fun e => czip_throws _ (by rw [hr.1, hx.1]; exact e), fun e => czip_ok _ hr (e ▸ hx)⟩

theorem C601_add_multiple_partial [Add β] [Mul β] (c : β) (hr : r.Holds n R) (hx : x.Holds p X) :
    (n ≠ p → r.addC c x = .throw) ∧ (n = p → ∃ s, r.addC c x = .ok s ∧ s.Holds n fun i => R i + c * X i) :=
  ⟨fun e => czip_throws _ (by rw [hr.1, hx.1]; exact e), fun e => czip_ok _ hr (e ▸ hx)⟩

theorem C601_subtract_partial [Sub β] (hr : r.Holds n R) (hx : x.Holds p X) :
    (n ≠ p → r.subtract x = .throw) ∧ (n = p → ∃ s, r.subtract x = .ok s ∧ s.Holds n fun i => R i - X i) :=
  ⟨fun e => czip_throws _ (by rw [hr.1, hx.1]; exact e), fun e => czip_ok _ hr (e ▸ hx)⟩

theorem C601_norm2_partial [Add β] [Mul β] (hr : r.Holds n R) (hx : x.Holds p X) :
    (n ≠ p → r.addNorm2 x = .throw) ∧ (n = p → ∃ s, r.addNorm2 x = .ok s ∧ s.Holds n fun i => R i + X i * X i) :=
  ⟨fun e => czip_throws _ (by rw [hr.1, hx.1]; exact e), fun e => czip_ok _ hr (e ▸ hx)⟩

theorem C601_minus_partial [Add β] [Sub β] (hr : r.Holds n R) (hx : x.Holds p X) (hy : y.Holds q Y) :
    (n ≠ p ∨ n ≠ q → r.addMinus x y = .throw) ∧ (n = p → n = q → ∃ s, r.addMinus x y = .ok s ∧ s.Holds n fun i => R i + (X i - Y i)) :=
  ⟨fun e => czip2_throws _ (by rw [hr.1, hx.1, hy.1]; exact e), fun e e' => czip2_ok _ hr (e ▸ hx) (e' ▸ hy)⟩

theorem C601_prod_partial [Add β] [Mul β] (hr : r.Holds n R) (hx : x.Holds p X) (hy : y.Holds q Y) :
    (n ≠ p ∨ n ≠ q → r.addProd x y = .throw) ∧ (n = p → n = q → ∃ s, r.addProd x y = .ok s ∧ s.Holds n fun i => R i + X i * Y i) :=
  ⟨fun e => czip2_throws _ (by rw [hr.1, hx.1, hy.1]; exact e), fun e e' => czip2_ok _ hr (e ▸ hx) (e' ▸ hy)⟩

theorem C601_div_partial [Add β] [Div β] (hr : r.Holds n R) (hx : x.Holds p X) (hy : y.Holds q Y) :
    (n ≠ p ∨ n ≠ q → r.addDiv x y = .throw) ∧ (n = p → n = q → ∃ s, r.addDiv x y = .ok s ∧ s.Holds n fun i => R i + X i / Y i) :=
  ⟨fun e => czip2_throws _ (by rw [hr.1, hx.1, hy.1]; exact e), fun e e' => czip2_ok _ hr (e ▸ hx) (e' ▸ hy)⟩

theorem C601_abs_partial [Add β] (abs : β → β) (hr : r.Holds n R) (hx : x.Holds n X) : ∃ s, r.addAbs abs x = .ok s ∧ s.Holds n fun i => R i + abs (X i) :=
  zip_ok _ hr hx

theorem C601_pow_partial [Add β] [Mul β] (pow : β → β) (c : β) (hr : r.Holds n R) (hx : x.Holds n X) :
    ∃ s, r.addPow pow c x = .ok s ∧ s.Holds n fun i => R i + c * pow (X i) := zip_ok _ hr hx

theorem C601_exp_partial [Add β] (exp : β → β) (hr : r.Holds n R) (hx : x.Holds n X) : ∃ s, r.addExp exp x = .ok s ∧ s.Holds n fun i => R i + exp (X i) :=
  zip_ok _ hr hx

/-- The functions without a check read the array of a number, or the number of a bundle, when the shapes differ. -/
theorem C601_unchecked_fails : ∃ r x : Scal Int, r.Holds (some 2) (fun _ => 0) ∧ x.Holds none (fun _ => 5) ∧ r.add x = .throw ∧ r.addExp (fun a => a) x = .ub ∧
    x.addExp (fun a => a) (ofVec none [3, 1]) = .ub := by
  refine ⟨⟨some 2, none, some [some 0, some 0]⟩, single 5, ⟨rfl, _, rfl, rfl, fun i hi => ?_⟩, ⟨rfl, rfl⟩, by decide, by decide, by decide⟩
  match i, hi with
  | 0, _ => rfl
  | 1, _ => rfl

end Checked

example : ((ofVec none [3, 1, 4]).addProd (ofVec none [1, 2, 3]) (ofVec none [10, 20, 30])).bind (fun s => s.toVec) = .ok [13, 41, 94] := by decide

/-! ### C602: complex scalars, number by number -/

section Complex

variable [Zero α] [Add α] [Sub α] [Neg α] [Mul α]
variable {r x y : Scal (Cx α)} {u : Scal α} {n p q : Option Nat} {R X Y : Nat → Cx α} {U : Nat → α}

theorem C602_real (d : Option α) (hx : x.Holds n X) : ∃ s, x.map d Cx.re = .ok s ∧ s.Holds n fun i => (X i).re := map_ok d _ hx

theorem C602_imag (d : Option α) (hx : x.Holds n X) : ∃ s, x.map d Cx.im = .ok s ∧ s.Holds n fun i => (X i).im := map_ok d _ hx

theorem C602_conj (d : Option (Cx α)) (hx : x.Holds n X) : ∃ s, x.map d Cx.conj = .ok s ∧ s.Holds n fun i => ⟨(X i).re, -(X i).im⟩ := map_ok d _ hx

theorem C602_set_real (hr : r.Holds n R) (hu : u.Holds n U) : ∃ s, r.setReal u = .ok s ∧ s.Holds n fun i => ⟨U i, (R i).im⟩ := zip_ok _ hr hu

theorem C602_set_imag (hr : r.Holds n R) (hu : u.Holds n U) : ∃ s, r.setImag u = .ok s ∧ s.Holds n fun i => ⟨(R i).re, U i⟩ := zip_ok _ hr hu

theorem C602_add_conj (hr : r.Holds n R) (hx : x.Holds p X) :
    (n ≠ p → r.addConj x = .throw) ∧ (n = p → ∃ s, r.addConj x = .ok s ∧ s.Holds n fun i => ⟨(R i).re + (X i).re, (R i).im + -(X i).im⟩) :=
  ⟨fun e => czip_throws _ (by rw [hr.1, hx.1]; exact e), fun e => czip_ok _ hr (e ▸ hx)⟩

theorem C602_add_real_to (hu : u.Holds n U) (hx : x.Holds p X) :
    (n ≠ p → u.addRealTo x = .throw) ∧ (n = p → ∃ s, u.addRealTo x = .ok s ∧ s.Holds n fun i => U i + (X i).re) :=
  ⟨fun e => czip_throws _ (by rw [hu.1, hx.1]; exact e), fun e => czip_ok _ hu (e ▸ hx)⟩

theorem C602_add_imag_to (hu : u.Holds n U) (hx : x.Holds p X) :
    (n ≠ p → u.addImagTo x = .throw) ∧ (n = p → ∃ s, u.addImagTo x = .ok s ∧ s.Holds n fun i => U i + (X i).im) :=
  ⟨fun e => czip_throws _ (by rw [hu.1, hx.1]; exact e), fun e => czip_ok _ hu (e ▸ hx)⟩

end Complex

section Complex2

variable [CommRing α]
variable {r x y : Scal (Cx α)} {u : Scal α} {n p q : Option Nat} {R X Y : Nat → Cx α} {U : Nat → α}

theorem C602_add_to_real (hr : r.Holds n R) (hu : u.Holds p U) :
    (n ≠ p → r.addToReal u = .throw) ∧ (n = p → ∃ s, r.addToReal u = .ok s ∧ s.Holds n fun i => ⟨(R i).re + U i, (R i).im⟩) := by
  refine ⟨fun e => czip_throws _ (by rw [hr.1, hu.1]; exact e), fun e => ?_⟩
  obtain ⟨s, h1, h2⟩ := czip_ok (fun (a : Cx α) (b : α) => a + ⟨b, 0⟩) hr (e ▸ hu)
  exact ⟨s, h1, h2.congr fun i _ => Cx.ext rfl (add_zero (R i).im)⟩

theorem C602_add_to_imag (hr : r.Holds n R) (hu : u.Holds p U) :
    (n ≠ p → r.addToImag u = .throw) ∧ (n = p → ∃ s, r.addToImag u = .ok s ∧ s.Holds n fun i => ⟨(R i).re, (R i).im + U i⟩) := by
  refine ⟨fun e => czip_throws _ (by rw [hr.1, hu.1]; exact e), fun e => ?_⟩
  obtain ⟨s, h1, h2⟩ := czip_ok (fun (a : Cx α) (b : α) => a + ⟨0, b⟩) hr (e ▸ hu)
  exact ⟨s, h1, h2.congr fun i _ => Cx.ext (add_zero (R i).re) rfl⟩

/-- The product of complex numbers, added. -/
theorem C602_prod (hr : r.Holds n R) (hx : x.Holds n X) (hy : y.Holds n Y) : ∃ s, r.addProdU x y = .ok s ∧
    s.Holds n fun i => ⟨(R i).re + ((X i).re * (Y i).re - (X i).im * (Y i).im), (R i).im + ((X i).re * (Y i).im + (X i).im * (Y i).re)⟩ := by
  obtain ⟨s, h1, h2⟩ := zip2_ok (fun (a b c : Cx α) => a + b * c) hr hx hy
  exact ⟨s, h1, h2.congr fun i _ => rfl⟩

/-- The product with the conjugate of the second factor. -/
theorem C602_prodc (hr : r.Holds n R) (hx : x.Holds n X) (hy : y.Holds n Y) : ∃ s, r.addProdc x y = .ok s ∧
    s.Holds n fun i => ⟨(R i).re + ((X i).re * (Y i).re + (X i).im * (Y i).im), (R i).im + ((X i).im * (Y i).re - (X i).re * (Y i).im)⟩ := by
  obtain ⟨s, h1, h2⟩ := zip2_ok (fun (a b c : Cx α) => a + b * c.conj) hr hx hy
  refine ⟨s, h1, h2.congr fun i _ => Cx.ext ?_ ?_⟩
  · show (R i).re + ((X i).re * (Y i).re - (X i).im * -(Y i).im) = _; ring
  · show (R i).im + ((X i).re * -(Y i).im + (X i).im * (Y i).re) = _; ring

/-- The conjugate of the product. -/
theorem C602_prodcc (hr : r.Holds n R) (hx : x.Holds n X) (hy : y.Holds n Y) : ∃ s, r.addProdcc x y = .ok s ∧
    s.Holds n fun i => ⟨(R i).re + ((X i).re * (Y i).re - (X i).im * (Y i).im), (R i).im - ((X i).re * (Y i).im + (X i).im * (Y i).re)⟩ := by
  obtain ⟨s, h1, h2⟩ := zip2_ok (fun (a b c : Cx α) => a + (b * c).conj) hr hx hy
  refine ⟨s, h1, h2.congr fun i _ => Cx.ext rfl ?_⟩
  show (R i).im + -((X i).re * (Y i).im + (X i).im * (Y i).re) = _; ring

/-- The product with a real scalar. -/
theorem C602_prod_real (hr : r.Holds n R) (hx : x.Holds n X) (hu : u.Holds n U) : ∃ s, r.addProdR x u = .ok s ∧
    s.Holds n fun i => ⟨(R i).re + (X i).re * U i, (R i).im + (X i).im * U i⟩ := by
  obtain ⟨s, h1, h2⟩ := zip2_ok (fun (a b : Cx α) (c : α) => a + b.scale c) hr hx hu
  refine ⟨s, h1, h2.congr fun i _ => Cx.ext ?_ ?_⟩
  · show (R i).re + U i * (X i).re = _; ring
  · show (R i).im + U i * (X i).im = _; ring

/-- The squared modulus, added to a real scalar. -/
theorem C602_norm2 (hu : u.Holds n U) (hx : x.Holds p X) :
    (n ≠ p → u.addNorm2To x = .throw) ∧ (n = p → ∃ s, u.addNorm2To x = .ok s ∧ s.Holds n fun i => U i + ((X i).re ^ 2 + (X i).im ^ 2)) := by
  refine ⟨fun e => czip_throws _ (by rw [hu.1, hx.1]; exact e), fun e => ?_⟩
  obtain ⟨s, h1, h2⟩ := czip_ok (fun (a : α) (b : Cx α) => a + (b * b.conj).re) hu (e ▸ hx)
  refine ⟨s, h1, h2.congr fun i _ => ?_⟩
  show U i + ((X i).re * (X i).re - (X i).im * -(X i).im) = _; ring

end Complex2

example : ((single (⟨1, 1⟩ : Cx Int)).addProdc (single ⟨1, 2⟩) (single ⟨3, 4⟩)).bind (fun s => s.value) = .ok ⟨12, 3⟩ ∧
    ((single (1 : Int)).addNorm2To (single ⟨3, 4⟩)).bind (fun s => s.value) = .ok 26 := by decide

/-! ### C603: sums of several scalars -/

theorem addSum_run [AddMonoid β] (V : Scal β → β) : ∀ (v : List (Scal β)), (∀ y ∈ v, y.Holds none fun _ => V y) → ∀ (r : Scal β) (a : β), r.Holds none (fun _ => a) →
    ∃ s, Res.forM v r (fun r y => r.rdVal >>= fun a => y.rdVal >>= fun b => Res.ok { r with val := some (a + b) }) = .ok s ∧ s.Holds none fun _ => a + (v.map V).sum := by
  intro v
  induction v with
  | nil => exact fun _ r a h => ⟨r, rfl, by simpa using h⟩
  | cons y v ih =>
    intro hv r a h
    obtain ⟨s, h1, h2⟩ := ih (fun z hz => hv z (List.mem_cons_of_mem _ hz)) { r with val := some (a + V y) } (a + V y) ⟨h.1, rfl⟩
    refine ⟨s, ?_, ?_⟩
    · rw [Res.forM_cons, h.rdVal, Res.ok_bind, (hv y List.mem_cons_self).rdVal, Res.ok_bind, Res.ok_bind]
      exact h1
    · rw [List.map_cons, List.sum_cons, ← add_assoc]; exact h2

/-- Numbers: their sum is added. -/
theorem C603_add_sum_partial [AddMonoid β] (V : Scal β → β) (v : List (Scal β)) (hv : ∀ y ∈ v, y.Holds none fun _ => V y) {r : Scal β} {a : β} (h : r.Holds none fun _ => a) :
    ∃ s, r.addSum v = .ok s ∧ s.Holds none fun _ => a + (v.map V).sum := by
  match v, hv with
  | [], _ => exact ⟨r, rfl, by simpa using h⟩
  | x :: v, hv =>
    obtain ⟨s, h1, h2⟩ := addSum_run V (x :: v) hv r a h
    refine ⟨s, ?_, h2⟩
    rw [addSum, (hv x List.mem_cons_self).1]
    exact h1

theorem sum_run [AddMonoid β] (V : Scal β → β) : ∀ (v : List (Scal β)), (∀ y ∈ v, y.Holds none fun _ => V y) → ∀ a : β,
    Res.forM v a (fun s y => y.rdVal >>= fun b => Res.ok (s + b)) = .ok (a + (v.map V).sum) := by
  intro v
  induction v with
  | nil => exact fun _ a => by simp [Res.forM]
  | cons y v ih =>
    intro hv a
    rw [Res.forM_cons, (hv y List.mem_cons_self).rdVal, Res.ok_bind, Res.ok_bind, ih (fun z hz => hv z (List.mem_cons_of_mem _ hz)), List.map_cons, List.sum_cons, add_assoc]

theorem C603_sum_partial [AddMonoid β] (V : Scal β → β) (v : List (Scal β)) (hv : ∀ y ∈ v, y.Holds none fun _ => V y) :
    ∃ s, sum v = .ok s ∧ s.Holds none fun _ => (v.map V).sum := by
  match v, hv with
  | [], _ => exact ⟨_, rfl, rfl, rfl⟩
  | x :: v, hv =>
    refine ⟨single ((x :: v).map V).sum, ?_, rfl, rfl⟩
    rw [sum, (hv x List.mem_cons_self).1]
    have := sum_run V (x :: v) hv 0
    rw [zero_add] at this
    simp only
    rw [this, Res.ok_bind]

example : ((single 1).addSum [single 3, single 4]).bind (fun s => s.value) = .ok 8 ∧ (sum [single 3, single 4]).bind (fun s => s.value) = .ok 7 := by decide

/-- Bundles: nothing is added, and the sum is the number 0. -/
theorem C603_bundles_fails [Zero β] [Add β] (r x : Scal β) (v : List (Scal β)) {k : Nat} {F : Nat → β} (h : x.Holds (some k) F) :
    r.addSum (x :: v) = .ok r ∧ sum (x :: v) = .ok (single 0) := by
  constructor
  · rw [addSum, h.1]
  · rw [sum, h.1]

example : ((ofVec none [1, 2]).addSum [ofVec none [3, 4], ofVec none [5, 6]]).bind (fun s => s.toVec) = .ok [1, 2] ∧
    (sum [ofVec none [3, 4], ofVec none [5, 6]]).bind (fun s => s.toVec) = .ok [0] := by decide

end Scal

end Cnine
