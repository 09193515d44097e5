import Verif.Model.Delta
import Verif.Props.Math

/-!
# Properties of the triangle coefficients (combinatorial/DeltaFactor.hpp)
-/

namespace Cnine

namespace Delta

/-- The triangle inequalities. -/
def Triangle (k : Key) : Prop := 0 ≤ k.1 + k.2.1 - k.2.2 ∧ 0 ≤ k.1 - k.2.1 + k.2.2 ∧ 0 ≤ -k.1 + k.2.1 + k.2.2

/-- The coefficient: (a+b-c)! (a-b+c)! (-a+b+c)! / (a+b+c+1)!. -/
def coeff (k : Key) : ℚ :=
  (Nat.factorial (k.1 + k.2.1 - k.2.2).toNat : ℚ) * Nat.factorial (k.1 - k.2.1 + k.2.2).toNat * Nat.factorial (-k.1 + k.2.1 + k.2.2).toNat /
    Nat.factorial (k.1 + k.2.1 + k.2.2 + 1).toNat

theorem fact_ok {s : List Frat × PrimeTable} (hs : FFact.Holds s) {x : Int} (hx : 0 ≤ x) :
    ∃ g s', fact s x = .ok (g, s') ∧ FFact.Holds s' ∧ Frat.Good g ∧ Frat.val g = (Nat.factorial x.toNat : ℚ) := by
  unfold fact
  rw [if_neg (by omega)]
  unfold FFact.get
  by_cases c : x.toNat < s.1.length
  · rw [if_pos c]
    simp only [Res.ok_bind]
    have h := hs.2.2 x.toNat _ (List.getElem?_eq_getElem c)
    refine ⟨s.1[x.toNat], s, ?_, hs, h.1, h.2⟩
    unfold Res.get
    rw [List.getElem?_eq_getElem c]
    rfl
  · rw [if_neg c]
    obtain ⟨s1, e1, g1, g2⟩ := FFact.extendLoop_ok (x.toNat + 1 - s.1.length) s hs
    have hl : x.toNat < s1.1.length := by omega
    rw [e1]
    simp only [Res.ok_bind]
    have h := g1.2.2 x.toNat _ (List.getElem?_eq_getElem hl)
    refine ⟨s1.1[x.toNat], s1, ?_, g1, h.1, h.2⟩
    unfold Res.get
    rw [List.getElem?_eq_getElem hl]
    rfl

theorem make_ok {s : List Frat × PrimeTable} (hs : FFact.Holds s) {k : Key} (hk : Triangle k) :
    ∃ g s', make s k = .ok (g, s') ∧ FFact.Holds s' ∧ Frat.Good g ∧ Frat.val g = coeff k := by
  obtain ⟨h1, h2, h3⟩ := hk
  obtain ⟨g1, s1, e1, a1, b1, c1⟩ := fact_ok hs h1
  obtain ⟨g2, s2, e2, a2, b2, c2⟩ := fact_ok a1 h2
  obtain ⟨g3, s3, e3, a3, b3, c3⟩ := fact_ok a2 h3
  obtain ⟨g4, s4, e4, a4, b4, c4⟩ := fact_ok a3 (x := k.1 + k.2.1 + k.2.2 + 1) (by omega)
  obtain ⟨p1, q1⟩ := Frat.C63_mul b1 b2
  obtain ⟨p2, q2⟩ := Frat.C63_mul p1 b3
  obtain ⟨p3, q3⟩ := Frat.C63_div p2 b4
  refine ⟨_, s4, ?_, a4, p3, ?_⟩
  · unfold make
    simp only [e1, e2, e3, e4, Res.ok_bind]
  · rw [q3, q2, q1, c1, c2, c3, c4]
    rfl

/-- What the bank holds is right. -/
def Inv (s : St) : Prop := FFact.Holds s.ff ∧ ∀ p ∈ s.bank, Frat.Good p.2 ∧ Frat.val p.2 = coeff p.1

theorem squared_ok {s : St} (hs : Inv s) {k : Key} (hk : Triangle k) :
    ∃ g s', squared s k = .ok (g, s') ∧ Inv s' ∧ Frat.Good g ∧ Frat.val g = coeff k := by
  unfold squared
  split
  · rename_i p hp
    have h1 := hs.2 p (List.mem_of_find?_eq_some hp)
    have h2 : p.1 = k := by simpa using List.find?_some hp
    exact ⟨p.2, s, rfl, hs, h1.1, h2 ▸ h1.2⟩
  · obtain ⟨g, s', e, h1, h2, h3⟩ := make_ok hs.1 hk
    rw [e]
    refine ⟨g, _, rfl, ⟨h1, ?_⟩, h2, h3⟩
    intro p hp
    rcases List.mem_cons.mp hp with rfl | hp
    · exact ⟨h2, h3⟩
    · exact hs.2 p hp

/-- **C297.** Whatever was asked before (of the coefficients, of the factorials and of the primes), `squared(a,b,c)` for numbers that satisfy the
triangle inequalities has the value (a+b-c)! (a-b+c)! (-a+b+c)! / (a+b+c+1)!, exactly and for numbers of any size. -/
theorem C297_squared {t : PrimeTable} (ht : PrimeTable.Made t) (ks : List Key) (hk : ∀ k ∈ ks, Triangle k) :
    ∃ s0, FFact.init t = .ok s0 ∧ ∃ fs s', ks.foldl (fun (acc : Res (List Frat × St)) k => acc >>= fun a => do
        let r ← squared a.2 k
        .ok (a.1 ++ [r.1], r.2)) (.ok ([], ⟨[], s0⟩)) = .ok (fs, s') ∧ (∀ f ∈ fs, Frat.Good f) ∧
      fs.map Frat.val = ks.map fun k => (Nat.factorial (k.1 + k.2.1 - k.2.2).toNat : ℚ) * Nat.factorial (k.1 - k.2.1 + k.2.2).toNat *
        Nat.factorial (-k.1 + k.2.1 + k.2.2).toNat / Nat.factorial (k.1 + k.2.1 + k.2.2 + 1).toNat := by
  obtain ⟨s0, e0, hs0⟩ : ∃ s0, FFact.init t = .ok s0 ∧ FFact.Holds s0 := by
    obtain ⟨f, t', e, h1, h2, h3⟩ := Frat.C63_ofInt ht (n := 1) (le_refl _)
    refine ⟨([f], t'), ?_, h1, by simp, fun k g hk => ?_⟩
    · unfold FFact.init
      have e' : Frat.ofInt t 1 = .ok (f, t') := by simpa using e
      rw [e']
      rfl
    · have hk0 : k = 0 := by
        have := (List.getElem?_eq_some_iff.mp hk).1
        simp at this; omega
      subst hk0
      simp at hk
      subst hk
      exact ⟨h2, by rw [h3]; simp⟩
  refine ⟨s0, e0, ?_⟩
  have key : ∀ (ks : List Key) (acc : List Frat) (s : St), (∀ k ∈ ks, Triangle k) → Inv s → (∀ f ∈ acc, Frat.Good f) →
      ∃ fs s', ks.foldl (fun (acc : Res (List Frat × St)) k => acc >>= fun a => do
        let r ← squared a.2 k
        .ok (a.1 ++ [r.1], r.2)) (.ok (acc, s)) = .ok (fs, s') ∧ (∀ f ∈ fs, Frat.Good f) ∧
        fs.map Frat.val = acc.map Frat.val ++ ks.map coeff := by
    intro ks
    induction ks with
    | nil => intro acc s _ _ ha; exact ⟨acc, s, rfl, ha, by simp⟩
    | cons k ks ih =>
      intro acc s hk hs ha
      obtain ⟨g, s1, e1, h1, h2, h3⟩ := squared_ok hs (hk k (by simp))
      obtain ⟨fs, s', e2, h4, h5⟩ := ih (acc ++ [g]) s1 (fun k h => hk k (List.mem_cons_of_mem _ h)) h1 (by
        intro f hf
        rcases List.mem_append.mp hf with hf | hf
        · exact ha f hf
        · rw [List.mem_singleton] at hf; rw [hf]; exact h2)
      refine ⟨fs, s', ?_, h4, ?_⟩
      · rw [List.foldl_cons, Res.ok_bind, e1, Res.ok_bind]
        exact e2
      · rw [h5]
        simp [h3]
  obtain ⟨fs, s', e, h1, h2⟩ := key ks [] ⟨[], s0⟩ hk ⟨hs0, by simp⟩ (by simp)
  exact ⟨fs, s', e, h1, by rw [h2]; rfl⟩

/-- Δ(1,1,1)² = 1/24, asked twice. -/
example : Triangle (1, 1, 1) ∧ coeff (1, 1, 1) = 1 / 24 ∧ Triangle (2, 1, 1) ∧ coeff (2, 1, 1) = 1 / 30 := by
  refine ⟨by unfold Triangle; decide, ?_, by unfold Triangle; decide, ?_⟩ <;> norm_num [coeff, show Int.toNat 4 = 4 from rfl, show Int.toNat 2 = 2 from rfl, show Int.toNat 5 = 5 from rfl, Nat.factorial]

/-- **C298 (the full claim is false).** For numbers that do not satisfy the triangle inequalities the coefficient is 0 or refused: the factorial of a
negative number is read outside its table. -/
theorem C298_no_triangle_fails : ∃ s0, FFact.init PrimeTable.init = .ok s0 ∧ squared ⟨[], s0⟩ (1, 1, 5) = .ub := ⟨_, rfl, rfl⟩

/-- It is so for all of them, when the coefficient was not asked for before. -/
theorem C298_no_triangle_all_fails (s : List Frat × PrimeTable) (hs : FFact.Holds s) (k : Key) (hk : ¬ Triangle k) :
    make s k = .ub := by
  unfold make
  by_cases h1 : 0 ≤ k.1 + k.2.1 - k.2.2
  · obtain ⟨g1, s1, e1, a1, _⟩ := fact_ok hs h1
    rw [e1, Res.ok_bind]
    by_cases h2 : 0 ≤ k.1 - k.2.1 + k.2.2
    · obtain ⟨g2, s2, e2, a2, _⟩ := fact_ok a1 h2
      rw [e2, Res.ok_bind]
      have h3 : ¬ 0 ≤ -k.1 + k.2.1 + k.2.2 := fun h3 => hk ⟨h1, h2, h3⟩
      unfold fact
      rw [if_pos (by omega)]
      rfl
    · unfold fact
      rw [if_pos (by omega)]
      rfl
  · unfold fact
    rw [if_pos (by omega)]
    rfl

end Delta

end Cnine
