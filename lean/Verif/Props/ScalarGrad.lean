import Verif.Lemmas.Scalar
import Mathlib.Analysis.Calculus.Deriv.Abs
import Mathlib.Analysis.Calculus.Deriv.Inv
import Mathlib.Analysis.Calculus.Deriv.Pow
import Mathlib.Analysis.SpecialFunctions.ExpDeriv
import Mathlib.Analysis.SpecialFunctions.Pow.Deriv
import Mathlib.Analysis.SpecialFunctions.Sqrt

/-!
# C604–C605: the backward functions of scalars

Over the real numbers with exact arithmetic: a backward function adds, to every number, the incoming gradient times the derivative of the forward function.
-/

namespace Cnine

namespace Scal

variable {r g x y : Scal ℝ} {n p q s : Option Nat} {R G X Y : Nat → ℝ}

/-! ### C604: real scalars -/

/-- `add_norm2`, the square. -/
theorem C604_norm2 (hr : r.Holds n R) (hg : g.Holds n G) (hx : x.Holds n X) (D : Nat → ℝ) (hD : ∀ i, i < n.getD 1 → HasDerivAt (fun t : ℝ => t * t) (D i) (X i)) :
    ∃ z, r.addNorm2Back g x = .ok z ∧ z.Holds n fun i => R i + G i * D i := by
  obtain ⟨z, h1, h2⟩ := czip2_ok (fun a b c : ℝ => a + 2 * b * c) hr hg hx
  refine ⟨z, h1, h2.congr fun i hi => ?_⟩
  have h : HasDerivAt (fun t : ℝ => t * t) (1 * X i + X i * 1) (X i) := (hasDerivAt_id (X i)).mul (hasDerivAt_id (X i))
  rw [(hD i hi).unique h]
  ring

/-- `add_div(x,y)` as a function of `x`. -/
theorem C604_div0 (hr : r.Holds n R) (hg : g.Holds n G) (hy : y.Holds n Y) (X D : Nat → ℝ) (hD : ∀ i, i < n.getD 1 → HasDerivAt (fun t : ℝ => t / Y i) (D i) (X i)) :
    ∃ z, r.addDiv g y = .ok z ∧ z.Holds n fun i => R i + G i * D i := by
  obtain ⟨z, h1, h2⟩ := czip2_ok (fun a b c : ℝ => a + b / c) hr hg hy
  refine ⟨z, h1, h2.congr fun i hi => ?_⟩
  have h : HasDerivAt (fun t : ℝ => t / Y i) (1 / Y i) (X i) := (hasDerivAt_id (X i)).div_const (Y i)
  rw [(hD i hi).unique h]
  ring

/-- `add_div(x,y)` as a function of `y`, where `y` is not 0; both formulas of the code. -/
theorem C604_div1 (pm2 : ℝ → ℝ) (hp : ∀ t, pm2 t = (t ^ 2)⁻¹) (hr : r.Holds n R) (hg : g.Holds n G) (hx : x.Holds n X) (hy : y.Holds n Y) (h0 : ∀ i, i < n.getD 1 → Y i ≠ 0)
    (D : Nat → ℝ) (hD : ∀ i, i < n.getD 1 → HasDerivAt (fun t : ℝ => X i / t) (D i) (Y i)) :
    ∃ z, r.addDivBack1 pm2 g x y = .ok z ∧ z.Holds n fun i => R i + G i * D i := by
  have hd : ∀ i, i < n.getD 1 → D i = -(X i) / Y i ^ 2 := fun i hi => by
    have h := (hasDerivAt_inv (h0 i hi)).const_mul (X i)
    have h' : HasDerivAt (fun t : ℝ => X i / t) (X i * -(Y i ^ 2)⁻¹) (Y i) := by simpa only [div_eq_mul_inv] using h
    rw [(hD i hi).unique h']
    ring
  rw [addDivBack1, decide_eq_true (hr.1.trans hg.1.symm), decide_eq_true (hr.1.trans hx.1.symm), decide_eq_true (hr.1.trans hy.1.symm), Res.assrt_true, Res.ok_bind, Res.ok_bind,
    Res.ok_bind]
  refine upd_ok hr _ _ (fun e => ?_) fun k e i hi => ?_
  · subst e
    rw [hg.rdVal, hx.rdVal, hy.rdVal, Res.ok_bind, Res.ok_bind, Res.ok_bind, hd 0 Nat.one_pos]
    congr 1
    have := h0 0 Nat.one_pos
    field_simp
    ring
  · subst e
    rw [hg.rdArr hi, hx.rdArr hi, hy.rdArr hi, Res.ok_bind, Res.ok_bind, Res.ok_bind, hd i hi, hp]
    congr 1
    have := h0 i hi
    field_simp
    ring

/-- Different shapes are refused. -/
theorem C604_div1_throws (pm2 : ℝ → ℝ) (hr : r.Holds n R) (hg : g.Holds p G) (hx : x.Holds q X) (hy : y.Holds s Y) (h : n ≠ p ∨ n ≠ q ∨ n ≠ s) :
    r.addDivBack1 pm2 g x y = .throw := by
  rw [addDivBack1, hr.1, hg.1, hx.1, hy.1]
  by_cases h1 : n = p
  · by_cases h2 : n = q
    · have h3 : n ≠ s := by
        rcases h with h | h | h
        · exact absurd h1 h
        · exact absurd h2 h
        · exact h
      rw [decide_eq_true h1, decide_eq_true h2, decide_eq_false h3]; rfl
    · rw [decide_eq_true h1, decide_eq_false h2]; rfl
  · rw [decide_eq_false h1]; rfl

open Classical in
/-- `add_abs`, where `x` is not 0. -/
theorem C604_abs (hr : r.Holds n R) (hg : g.Holds n G) (hx : x.Holds n X) (h0 : ∀ i, i < n.getD 1 → X i ≠ 0)
    (D : Nat → ℝ) (hD : ∀ i, i < n.getD 1 → HasDerivAt (fun t : ℝ => |t|) (D i) (X i)) :
    ∃ z, r.addAbsBack (fun t => decide (0 < t)) g x = .ok z ∧ z.Holds n fun i => R i + G i * D i := by
  obtain ⟨z, h1, h2⟩ := zip2_ok (fun a g x : ℝ => a + if decide (0 < x) then g else -g) hr hg hx
  refine ⟨z, h1, h2.congr fun i hi => ?_⟩
  rcases lt_or_gt_of_ne (h0 i hi) with h | h
  · rw [(hD i hi).unique (hasDerivAt_abs_neg h)]
    have : ¬ 0 < X i := not_lt.2 h.le
    simp [this]
  · rw [(hD i hi).unique (hasDerivAt_abs_pos h)]
    have : 0 < X i := h
    simp [this]

open Classical in
/-- The rectifier with slope `c` on the left, where `x` is not 0. -/
theorem C604_relu (c : ℝ) (hr : r.Holds n R) (hg : g.Holds n G) (hx : x.Holds n X) (h0 : ∀ i, i < n.getD 1 → X i ≠ 0)
    (D : Nat → ℝ) (hD : ∀ i, i < n.getD 1 → HasDerivAt (fun t : ℝ => if 0 < t then t else c * t) (D i) (X i)) :
    ∃ z, r.addReLUBack (fun t => decide (0 < t)) c g x = .ok z ∧ z.Holds n fun i => R i + G i * D i := by
  obtain ⟨z, h1, h2⟩ := zip2_ok (fun a g x : ℝ => a + if decide (0 < x) then g else c * g) hr hg hx
  refine ⟨z, h1, h2.congr fun i hi => ?_⟩
  rcases lt_or_gt_of_ne (h0 i hi) with h | h
  · have e : HasDerivAt (fun t : ℝ => if 0 < t then t else c * t) (c * 1) (X i) :=
      ((hasDerivAt_id (X i)).const_mul c).congr_of_eventuallyEq (by
        filter_upwards [gt_mem_nhds h] with t ht
        rw [if_neg (not_lt.2 (le_of_lt ht))]; rfl)
    rw [(hD i hi).unique e]
    have : ¬ 0 < X i := not_lt.2 h.le
    simp [this, mul_comm]
  · have h' : 0 < X i := h
    have e : HasDerivAt (fun t : ℝ => if 0 < t then t else c * t) 1 (X i) :=
      (hasDerivAt_id (X i)).congr_of_eventuallyEq (by
        filter_upwards [lt_mem_nhds h'] with t ht
        rw [if_pos ht]; rfl)
    rw [(hD i hi).unique e]
    simp [h']

/-- The sigmoid: the argument of the backward function is the output of the forward function. -/
theorem C604_sigmoid (hr : r.Holds n R) (hg : g.Holds n G) (hy : y.Holds n fun i => 1 / (1 + Real.exp (-X i)))
    (D : Nat → ℝ) (hD : ∀ i, i < n.getD 1 → HasDerivAt (fun t : ℝ => 1 / (1 + Real.exp (-t))) (D i) (X i)) :
    ∃ z, r.addSigmoidBack g y = .ok z ∧ z.Holds n fun i => R i + G i * D i := by
  obtain ⟨z, h1, h2⟩ := zip2_ok (fun a g x : ℝ => a + x * (1 - x) * g) hr hg hy
  refine ⟨z, h1, h2.congr fun i hi => ?_⟩
  have hp : (1 + Real.exp (-X i)) ≠ 0 := by positivity
  have e1 : HasDerivAt (fun t : ℝ => 1 + Real.exp (-t)) (Real.exp (-X i) * -1) (X i) := ((hasDerivAt_id (X i)).neg.exp).const_add 1
  have e2 : HasDerivAt (fun t : ℝ => 1 / (1 + Real.exp (-t))) (-(Real.exp (-X i) * -1) / (1 + Real.exp (-X i)) ^ 2) (X i) := by
    simp only [one_div]
    exact e1.inv hp
  rw [(hD i hi).unique e2]
  field_simp
  ring

/-- What the forward function adds to zero is the argument of the backward function. -/
theorem C604_sigmoid_forward (hr : r.Holds n fun _ => 0) (hx : x.Holds n X) : ∃ z, r.addSigmoid Real.exp x = .ok z ∧ z.Holds n fun i => 1 / (1 + Real.exp (-X i)) := by
  obtain ⟨z, h1, h2⟩ := zip_ok (fun a x : ℝ => a + 1 / (1 + Real.exp (-x))) hr hx
  exact ⟨z, h1, h2.congr fun i _ => zero_add _⟩

/-- The power `c·x^e`, where `x` is not 0: the backward function is called with the exponent `e-1` and the factor `c·e`. -/
theorem C604_pow (c e : ℝ) (hr : r.Holds n R) (hg : g.Holds n G) (hx : x.Holds n X) (h0 : ∀ i, i < n.getD 1 → X i ≠ 0)
    (D : Nat → ℝ) (hD : ∀ i, i < n.getD 1 → HasDerivAt (fun t : ℝ => c * t ^ e) (D i) (X i)) :
    ∃ z, r.addPowBack (fun t => t ^ (e - 1)) (c * e) g x = .ok z ∧ z.Holds n fun i => R i + G i * D i := by
  obtain ⟨z, h1, h2⟩ := zip2_ok (fun a g x : ℝ => a + c * e * g * x ^ (e - 1)) hr hg hx
  refine ⟨z, h1, h2.congr fun i hi => ?_⟩
  rw [(hD i hi).unique ((Real.hasDerivAt_rpow_const (Or.inl (h0 i hi))).const_mul c)]
  ring

example : (single (3 : ℝ)).Holds none (fun _ => 3) ∧ HasDerivAt (fun t : ℝ => t * t) 6 3 := by
  refine ⟨⟨rfl, rfl⟩, ?_⟩
  have h : HasDerivAt (fun t : ℝ => t * t) (1 * 3 + 3 * 1) 3 := (hasDerivAt_id (3 : ℝ)).mul (hasDerivAt_id (3 : ℝ))
  norm_num at h
  exact h

example : ((single (1 : Rat)).addNorm2Back (single 2) (single 3)).bind (fun s => s.value) = .ok 13 ∧
    ((ofVec none [1, 1]).addDivBack1 (fun t : Rat => 1 / (t * t)) (ofVec none [2, 2]) (ofVec none [3, 5]) (ofVec none [2, 1])).bind (fun s => s.toVec) = .ok [-(1 / 2), -9] := by
  decide +kernel

/-! ### C605: complex scalars -/

section Complex

variable {r g x : Scal (Cx ℝ)} {u : Scal ℝ} {R G X : Nat → Cx ℝ} {U : Nat → ℝ}

/-- The rectifier acts on the real and on the imaginary part; so does its backward function. -/
theorem C605_relu_partial (pos : ℝ → Bool) (c : ℝ) (hr : r.Holds n R) (hg : g.Holds n G) (hx : x.Holds n X) :
    (∃ z, r.addReLUC pos c x = .ok z ∧ z.Holds n fun i =>
      ⟨(R i).re + if pos (X i).re then (X i).re else c * (X i).re, (R i).im + if pos (X i).im then (X i).im else c * (X i).im⟩) ∧
    ∃ z, r.addReLUBackC pos c g x = .ok z ∧ z.Holds n fun i =>
      ⟨(R i).re + (G i).re * (if pos (X i).re then 1 else c), (R i).im + (G i).im * (if pos (X i).im then 1 else c)⟩ := by
  constructor
  · exact zip_ok _ hr hx
  · obtain ⟨z, h1, h2⟩ := zip2_ok (fun (a g x : Cx ℝ) => a + ⟨if pos x.re then g.re else c * g.re, if pos x.im then g.im else c * g.im⟩) hr hg hx
    refine ⟨z, h1, h2.congr fun i _ => Cx.ext ?_ ?_⟩
    · show (R i).re + (if pos (X i).re then (G i).re else c * (G i).re) = (R i).re + (G i).re * (if pos (X i).re then 1 else c)
      cases pos (X i).re <;> simp [mul_comm]
    · show (R i).im + (if pos (X i).im then (G i).im else c * (G i).im) = (R i).im + (G i).im * (if pos (X i).im then 1 else c)
      cases pos (X i).im <;> simp [mul_comm]

/-- The backward function of the squared modulus: the derivative by the real part is right. -/
theorem C605_norm2_partial (hr : r.Holds n R) (hu : u.Holds n U) (hx : x.Holds n X) (D : Nat → ℝ)
    (hD : ∀ i, i < n.getD 1 → HasDerivAt (fun t : ℝ => t ^ 2 + (X i).im ^ 2) (D i) (X i).re) :
    ∃ z, r.addNorm2BackC u x = .ok z ∧ z.Holds n fun i => ⟨(R i).re + U i * D i, (R i).im⟩ := by
  obtain ⟨z, h1, h2⟩ := czip2_ok (fun (a : Cx ℝ) (g : ℝ) (y : Cx ℝ) => a + (y + y.conj).scale g) hr hu hx
  refine ⟨z, h1, h2.congr fun i hi => Cx.ext ?_ ?_⟩
  · have h := (hasDerivAt_pow 2 (X i).re).add_const ((X i).im ^ 2)
    rw [(hD i hi).unique h]
    show (R i).re + U i * ((X i).re + (X i).re) = _
    push_cast
    ring
  · show (R i).im + U i * ((X i).im + -(X i).im) = (R i).im
    ring

/-- The derivative by the imaginary part is lost: it is `2·im`, and nothing is added. -/
theorem C605_norm2_fails (a b : ℝ) (hb : b ≠ 0) : ∃ z, (single (⟨0, 0⟩ : Cx ℝ)).addNorm2BackC (single 1) (single ⟨a, b⟩) = .ok z ∧ z.Holds none (fun _ => ⟨2 * a, 0⟩) ∧
    ¬ HasDerivAt (fun t : ℝ => a ^ 2 + t ^ 2) 0 b := by
  obtain ⟨z, h1, h2⟩ := czip2_ok (r := single (⟨0, 0⟩ : Cx ℝ)) (x := single (1 : ℝ)) (y := single (⟨a, b⟩ : Cx ℝ)) (n := none) (F := fun _ => ⟨0, 0⟩) (G := fun _ => 1)
    (H := fun _ => ⟨a, b⟩) (fun (a : Cx ℝ) (g : ℝ) (y : Cx ℝ) => a + (y + y.conj).scale g) ⟨rfl, rfl⟩ ⟨rfl, rfl⟩ ⟨rfl, rfl⟩
  refine ⟨z, h1, h2.congr fun i _ => Cx.ext ?_ ?_, fun h => ?_⟩
  · show (0 : ℝ) + 1 * (a + a) = 2 * a
    ring
  · show (0 : ℝ) + 1 * (b + -b) = 0
    ring
  · have h' := (hasDerivAt_pow 2 b).const_add (a ^ 2)
    have e := h.unique h'
    push_cast at e
    have : (2 : ℝ) * b ^ (2 - 1) ≠ 0 := by simpa using hb
    exact this e.symm

open Classical in
/-- The backward function of the modulus adds `±g`, part by part: at 3+4i and for the gradient 1 it adds 1, and the derivative of the modulus by the real part is not 1 (it is 3/5). -/
theorem C605_abs_fails : ∃ z, (single (⟨0, 0⟩ : Cx ℝ)).addAbsBackC (fun t => decide (0 < t)) (single ⟨1, 0⟩) (single ⟨3, 4⟩) = .ok z ∧
    z.Holds none (fun _ => ⟨1, 0⟩) ∧ ¬ HasDerivAt (fun t : ℝ => Real.sqrt (t ^ 2 + 4 ^ 2)) 1 3 := by
  obtain ⟨z, h1, h2⟩ := zip2_ok (r := single (⟨0, 0⟩ : Cx ℝ)) (x := single (⟨1, 0⟩ : Cx ℝ)) (y := single (⟨3, 4⟩ : Cx ℝ)) (n := none) (F := fun _ => ⟨0, 0⟩) (G := fun _ => ⟨1, 0⟩)
    (H := fun _ => ⟨3, 4⟩)
    (fun (a g x : Cx ℝ) => a + ⟨if decide (0 < x.re) then g.re else -g.re, if decide (0 < x.im) then g.im else -g.im⟩) ⟨rfl, rfl⟩ ⟨rfl, rfl⟩ ⟨rfl, rfl⟩
  refine ⟨z, h1, h2.congr fun i _ => Cx.ext ?_ ?_, fun h => ?_⟩
  · show (0 : ℝ) + (if decide ((0 : ℝ) < 3) then 1 else -1) = 1
    norm_num
  · show (0 : ℝ) + (if decide ((0 : ℝ) < 4) then 0 else -0) = 0
    norm_num
  · have h' := ((hasDerivAt_pow 2 (3 : ℝ)).add_const ((4 : ℝ) ^ 2)).sqrt (by norm_num)
    have e := h.unique h'
    have hs : Real.sqrt ((3 : ℝ) ^ 2 + 4 ^ 2) = 5 := by
      rw [show (3 : ℝ) ^ 2 + 4 ^ 2 = 5 ^ 2 by norm_num]
      exact Real.sqrt_sq (by norm_num)
    rw [hs] at e
    norm_num at e

end Complex

end Scal

end Cnine
