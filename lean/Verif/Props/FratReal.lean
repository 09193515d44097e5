import Verif.Model.FratReal
import Verif.Props.Math
import Mathlib.Analysis.SpecialFunctions.Log.Basic

/-! # Properties of the conversions of fractions in factored form (math/frational.hpp:52-64, 96-98) -/

namespace Cnine.Frat

theorem foldl_mul (f : Frat) : ∀ r : ℝ, f.foldl (fun r x => r * (x.1 : ℝ) ^ x.2) r = r * ((val f : ℚ) : ℝ) := by
  induction f with
  | nil => intro r; simp [val]
  | cons e f ih => intro r; rw [List.foldl_cons, ih, val_cons]; push_cast; ring

theorem val_pos {f : Frat} (hf : ∀ e ∈ f, Nat.Prime e.1) : (0 : ℝ) < ((val f : ℚ) : ℝ) := by
  induction f with
  | nil => simp [val]
  | cons e f ih =>
    rw [val_cons]
    push_cast
    have h1 : (0 : ℝ) < (e.1 : ℝ) := by exact_mod_cast (hf e List.mem_cons_self).pos
    exact mul_pos (zpow_pos h1 _) (ih fun x hx => hf x (List.mem_cons_of_mem _ hx))

theorem foldl_log (f : Frat) : (∀ e ∈ f, Nat.Prime e.1) → ∀ r : ℝ,
    f.foldl (fun r x => r + Real.log (x.1 : ℝ) * (x.2 : ℝ)) r = r + Real.log ((val f : ℚ) : ℝ) := by
  induction f with
  | nil => intro _ r; simp [val]
  | cons e f ih =>
    intro hf r
    have hf' : ∀ x ∈ f, Nat.Prime x.1 := fun x hx => hf x (List.mem_cons_of_mem _ hx)
    have h1 : (0 : ℝ) < (e.1 : ℝ) := by exact_mod_cast (hf e List.mem_cons_self).pos
    rw [List.foldl_cons, ih hf', val_cons]
    push_cast
    rw [Real.log_mul (zpow_pos h1 _).ne' (val_pos hf').ne', Real.log_zpow]
    ring

/-- C646: the conversion gives the number the factors stand for. -/
theorem C646_double (f : Frat) : (toDouble f : ℝ) = ((val f : ℚ) : ℝ) := by
  unfold toDouble; rw [foldl_mul, one_mul]

/-- C646: `log` is the logarithm of the conversion. -/
theorem C646_log {f : Frat} (hf : Good f) : logSum (fun p => Real.log p) f = Real.log (toDouble f : ℝ) := by
  rw [C646_double]
  unfold logSum
  rw [foldl_log f hf.2, zero_add]

/-- C646: a fraction made from two positive numbers converts to their quotient, whatever the table of primes held before. -/
theorem C646_quotient {t : PrimeTable} (ht : PrimeTable.Made t) {p q : Nat} (hp : 1 ≤ p) (hq : 1 ≤ q) :
    ∃ f t', ofInts t p q = .ok (f, t') ∧ (toDouble f : ℝ) = (p : ℝ) / q ∧
      logSum (fun p => Real.log p) f = Real.log p - Real.log q := by
  obtain ⟨f, t', e, _, g, v⟩ := C63_ofInts ht hp hq
  have hd : (toDouble f : ℝ) = (p : ℝ) / q := by rw [C646_double, v]; push_cast; rfl
  refine ⟨f, t', e, hd, ?_⟩
  rw [C646_log g, hd, Real.log_div]
  · exact_mod_cast Nat.one_le_iff_ne_zero.mp hp
  · exact_mod_cast Nat.one_le_iff_ne_zero.mp hq

/-- C647: products and quotients convert to products and quotients, and their logarithms to sums and differences. -/
theorem C647_ops {f g : Frat} (hf : Good f) (hg : Good g) :
    (toDouble (mul f g) : ℝ) = toDouble f * toDouble g ∧ (toDouble (div f g) : ℝ) = toDouble f / toDouble g ∧
      logSum (fun p => Real.log p) (mul f g) = logSum (fun p => Real.log p) f + logSum (fun p => Real.log p) g ∧
      logSum (fun p => Real.log p) (div f g) = logSum (fun p => Real.log p) f - logSum (fun p => Real.log p) g := by
  obtain ⟨m1, m2⟩ := C63_mul hf hg
  obtain ⟨d1, d2⟩ := C63_div hf hg
  have pf := (val_pos hf.2).ne'
  have pg := (val_pos hg.2).ne'
  refine ⟨?_, ?_, ?_, ?_⟩
  · simp only [C646_double, m2]; push_cast; rfl
  · simp only [C646_double, d2]; push_cast; rfl
  · rw [C646_log m1, C646_log hf, C646_log hg]
    simp only [C646_double, m2]; push_cast
    exact Real.log_mul pf pg
  · rw [C646_log d1, C646_log hf, C646_log hg]
    simp only [C646_double, d2]; push_cast
    exact Real.log_div pf pg

/-- C647: multiplication by a positive `int`. -/
theorem C647_mulInt {t : PrimeTable} (ht : PrimeTable.Made t) {f : Frat} (hf : Good f) {n : Nat} (hn : 1 ≤ n) :
    ∃ g t', mulInt t f n = .ok (g, t') ∧ PrimeTable.Made t' ∧ Good g ∧ (toDouble g : ℝ) = toDouble f * n := by
  obtain ⟨r, t', e, h, g, v⟩ := C63_ofInt ht hn
  obtain ⟨m1, m2⟩ := C63_mul hf g
  refine ⟨mul f r, t', ?_, h, m1, ?_⟩
  · unfold mulInt; rw [e]; rfl
  · simp only [C646_double, m2, v]; push_cast; rfl

example : ∃ f t', ofInts PrimeTable.init 12 8 = .ok (f, t') ∧ (toDouble f : ℝ) = 3 / 2 := by
  obtain ⟨f, t', e, h, _⟩ := C646_quotient (p := 12) (q := 8) .init (by decide) (by decide)
  exact ⟨f, t', e, by rw [h]; norm_num⟩
example : (toDouble [(2, -1), (3, 1)] : ℚ) = 3 / 2 := by norm_num [toDouble]
example : (toDouble (mul [(2, -1), (3, 1)] [(2, 2), (5, 1)]) : ℝ) = toDouble [(2, -1), (3, 1)] * toDouble [(2, 2), (5, 1)] :=
  (C647_ops ⟨by simp [OMap.Sorted], by decide⟩ ⟨by simp [OMap.Sorted], by decide⟩).1
example : ∃ g t', mulInt PrimeTable.init [(2, -1), (3, 1)] 10 = .ok (g, t') ∧ (toDouble g : ℝ) = toDouble [(2, -1), (3, 1)] * (10 : Nat) := by
  obtain ⟨g, t', e, _, _, h⟩ := C647_mulInt (n := 10) .init (f := [(2, -1), (3, 1)]) ⟨by simp [OMap.Sorted], by decide⟩ (by decide)
  exact ⟨g, t', e, h⟩

end Cnine.Frat
