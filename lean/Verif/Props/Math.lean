import Verif.Model.Math
import Verif.Lemmas.OMap
import Mathlib.Data.Nat.Prime.Basic
import Mathlib.Data.Nat.Factorial.Basic
import Mathlib.NumberTheory.Padics.PadicVal.Basic
import Mathlib.Algebra.BigOperators.Group.List.Basic
import Mathlib.LinearAlgebra.Matrix.Determinant.Basic
import Mathlib.Tactic.FieldSimp
import Mathlib.Tactic.Ring

/-! # C61–C65, C109–C111: number-theoretic helpers -/

namespace Cnine

/-! ## The prime table -/

theorem divOut_ok {p : Nat} (hp : 2 ≤ p) : ∀ (fuel n : Nat), 1 ≤ n → n < fuel →
    ∃ m k : Nat, divOut p fuel n = .ok ((m : Int), k) ∧ n = p ^ k * m ∧ ¬ p ∣ m ∧ 1 ≤ m := by
  intro fuel
  induction fuel with
  | zero => intro n _ h; omega
  | succ fuel ih =>
    intro n hn hf
    have hp0 : (p : Int) ≠ 0 := by omega
    unfold divOut
    rw [if_neg hp0]
    have hmod : Int.tmod (n : Int) p = ((n % p : Nat) : Int) := by
      rw [Int.ofNat_tmod]
    have hdiv : Int.tdiv (n : Int) p = ((n / p : Nat) : Int) := by
      rw [Int.ofNat_tdiv]
    rw [hmod, hdiv]
    by_cases c : n % p = 0
    · rw [if_pos (by rw [c]; rfl)]
      have hd : p ∣ n := Nat.dvd_of_mod_eq_zero c
      have hpos : 1 ≤ n / p := Nat.div_pos (Nat.le_of_dvd hn hd) (by omega)
      obtain ⟨m, k, e, h1, h2, h3⟩ := ih (n / p) hpos (by
        have := Nat.div_lt_self hn hp
        omega)
      refine ⟨m, k + 1, ?_, ?_, h2, h3⟩
      · rw [e]; rfl
      · rw [pow_succ, mul_comm (p ^ k) p, mul_assoc, ← h1, Nat.mul_div_cancel' hd]
    · rw [if_neg (by
        intro h
        exact c (by exact_mod_cast h))]
      exact ⟨n, 0, rfl, by simp, fun h => c (Nat.mod_eq_zero_of_dvd h), hn⟩

namespace PrimeTable

/-- The primes up to `n`, increasing. -/
def primesUpTo (n : Nat) : List Nat := (List.range (n + 1)).filter Nat.Prime

theorem reduce_ok : ∀ (tab : List Nat) (n : Nat), (∀ p ∈ tab, Nat.Prime p) → 1 ≤ n →
    ∃ m : Nat, reduce tab n = .ok (m : Int) ∧ m ∣ n ∧ 1 ≤ m ∧ (∀ p ∈ tab, ¬ p ∣ m) ∧ ((∀ p ∈ tab, ¬ p ∣ n) → m = n) := by
  intro tab
  induction tab with
  | nil => intro n _ hn; exact ⟨n, rfl, dvd_rfl, hn, by simp, fun _ => rfl⟩
  | cons p tab ih =>
    intro n hp hn
    have hpp := hp p List.mem_cons_self
    obtain ⟨m, k, e, h1, h2, h3⟩ := divOut_ok hpp.two_le (n + 1) n hn (by omega)
    unfold reduce
    rw [Int.natAbs_natCast, e]
    simp only [Res.ok_bind]
    have hmn : m ∣ n := ⟨p ^ k, by rw [h1]; ring⟩
    have hk0 : ¬ p ∣ n → m = n := by
      intro hnd
      cases k with
      | zero => rw [h1]; simp
      | succ k => exact absurd ⟨p ^ k * m, by rw [h1, pow_succ]; ring⟩ hnd
    by_cases c : m = 1
    · subst c
      rw [if_pos (by rfl)]
      refine ⟨1, rfl, hmn, le_refl _, fun q hq hd => ?_, fun h => hk0 (h p List.mem_cons_self)⟩
      have := (hp q hq).two_le
      have := Nat.le_of_dvd (by omega) hd
      omega
    · rw [if_neg (by exact_mod_cast c)]
      obtain ⟨m', e', a1, a2, a3, a4⟩ := ih m (fun q hq => hp q (List.mem_cons_of_mem _ hq)) h3
      refine ⟨m', e', a1.trans hmn, a2, fun q hq hd => ?_, fun h => ?_⟩
      · rcases List.mem_cons.mp hq with rfl | hq
        · exact h2 (hd.trans a1)
        · exact a3 q hq hd
      · have := hk0 (h p List.mem_cons_self)
        subst this
        exact a4 (fun q hq => h q (List.mem_cons_of_mem _ hq))

theorem primesUpTo_succ (n : Nat) : primesUpTo (n + 1) = primesUpTo n ++ if Nat.Prime (n + 1) then [n + 1] else [] := by
  unfold primesUpTo
  rw [List.range_succ, List.filter_append]
  by_cases c : Nat.Prime (n + 1) <;> simp [c]

theorem mem_primesUpTo {n p : Nat} : p ∈ primesUpTo n ↔ p ≤ n ∧ Nat.Prime p := by
  unfold primesUpTo
  simp [List.mem_filter, Nat.lt_succ_iff]

theorem add1_ok (n : Nat) (hn : 1 ≤ n) : add1 (primesUpTo n) ((n + 1 : Nat) : Int) = .ok (primesUpTo (n + 1)) := by
  obtain ⟨m, e, h1, h2, h3, h4⟩ := reduce_ok (primesUpTo n) (n + 1) (fun p hp => (mem_primesUpTo.mp hp).2) (by omega)
  unfold add1
  rw [e, primesUpTo_succ]
  simp only [Res.ok_bind]
  by_cases c : Nat.Prime (n + 1)
  · have hm : m = n + 1 := h4 (fun p hp hd => by
      obtain ⟨hle, hpp⟩ := mem_primesUpTo.mp hp
      rcases (Nat.dvd_prime c).mp hd with rfl | rfl
      · exact Nat.not_prime_one hpp
      · omega)
    subst hm
    rw [if_pos (by push_cast; omega), if_pos c]
    simp
  · have hm : m = 1 := by
      by_contra hne
      have hq := Nat.minFac_prime hne
      have hqm := Nat.minFac_dvd m
      have hqn : m.minFac ≤ n + 1 := Nat.le_of_dvd (by omega) (hqm.trans h1)
      have : m.minFac ≠ n + 1 := by
        intro e'
        rw [e'] at hq
        exact c hq
      exact h3 m.minFac (mem_primesUpTo.mpr ⟨by omega, hq⟩) hqm
    subst hm
    rw [if_neg (by simp), if_neg c, List.append_nil]

theorem addLoop_ok : ∀ (k n : Nat), 1 ≤ n → addLoop k ((n : Int) + 1) (primesUpTo n) = .ok (primesUpTo (n + k)) := by
  intro k
  induction k with
  | zero => intro n _; rfl
  | succ k ih =>
    intro n hn
    unfold addLoop
    have := add1_ok n hn
    push_cast at this
    rw [this]
    simp only [Res.ok_bind]
    have h2 := ih (n + 1) (by omega)
    push_cast at h2
    rw [h2]
    congr 2
    omega

/-- A table made by some extensions. -/
inductive Made : PrimeTable → Prop
  | init : Made init
  | extend {t t' : PrimeTable} (lim : Int) : Made t → t.extend lim = .ok t' → Made t'

/-- The shape of a table. -/
def Full (t : PrimeTable) (n : Nat) : Prop := 1 ≤ n ∧ t.limit = n ∧ t.tab = primesUpTo n

theorem full_init : Full init 1 := by
  refine ⟨le_refl _, rfl, ?_⟩
  decide

theorem full_extend {t : PrimeTable} {n : Nat} (h : Full t n) (lim : Int) :
    ∃ t', t.extend lim = .ok t' ∧ Full t' (max n lim.toNat) := by
  obtain ⟨h1, h2, h3⟩ := h
  unfold extend
  by_cases c : lim ≤ t.limit
  · rw [if_pos c]
    refine ⟨t, rfl, by omega, ?_, ?_⟩
    · rw [h2, max_eq_left]
      omega
    · rw [h3, max_eq_left]
      omega
  · rw [if_neg c, h2, h3, addLoop_ok _ _ h1]
    simp only [Res.ok_bind]
    have hmax : max n lim.toNat = lim.toNat := max_eq_right (by omega)
    rw [hmax]
    refine ⟨_, rfl, by omega, ?_, ?_⟩
    · dsimp only; omega
    · dsimp only; congr 1; omega

theorem made_full {t : PrimeTable} (h : Made t) : ∃ n, Full t n := by
  induction h with
  | init => exact ⟨1, full_init⟩
  | @extend t t' lim _ e ih =>
    obtain ⟨n, hn⟩ := ih
    obtain ⟨t'', e', h'⟩ := full_extend hn lim
    rw [e] at e'
    injection e' with e'
    subst e'
    exact ⟨_, h'⟩

/-- After any extensions the limit is the largest one asked for (at least 1) and the table lists exactly the primes up to the
limit, increasing; an extension never fails. -/
theorem C61_primes (lims : List Int) :
    ∃ t, lims.foldl (fun (acc : Res PrimeTable) lim => acc >>= fun t => t.extend lim) (.ok init) = .ok t ∧
      t.limit = lims.foldl max 1 ∧ t.tab.Pairwise (· < ·) ∧ ∀ p : Nat, p ∈ t.tab ↔ Nat.Prime p ∧ (p : Int) ≤ t.limit := by
  have key : ∀ (lims : List Int) (t : PrimeTable) (n : Nat), Full t n →
      ∃ t', lims.foldl (fun (acc : Res PrimeTable) lim => acc >>= fun t => t.extend lim) (.ok t) = .ok t' ∧
        t'.limit = lims.foldl max t.limit ∧ ∃ n', Full t' n' := by
    intro lims
    induction lims with
    | nil => intro t n h; exact ⟨t, rfl, rfl, n, h⟩
    | cons l lims ih =>
      intro t n h
      obtain ⟨t1, e1, h1⟩ := full_extend h l
      obtain ⟨t2, e2, h2, h3⟩ := ih t1 _ h1
      refine ⟨t2, ?_, ?_, h3⟩
      · rw [List.foldl_cons, Res.ok_bind, e1]; exact e2
      · rw [h2, List.foldl_cons]
        congr 1
        rw [h1.2.1, h.2.1]
        have := h.1
        omega
  obtain ⟨t, e, h1, n, h2⟩ := key lims init 1 full_init
  refine ⟨t, e, h1, ?_, fun p => ?_⟩
  · rw [h2.2.2]
    exact List.Pairwise.filter _ List.pairwise_lt_range
  · rw [h2.2.2, mem_primesUpTo, h2.2.1]
    constructor
    · rintro ⟨a, b⟩; exact ⟨b, by exact_mod_cast a⟩
    · rintro ⟨a, b⟩; exact ⟨by exact_mod_cast b, a⟩

example : (do let t ← init.extend 10; t.extend 7) = .ok ⟨[2, 3, 5, 7], 10⟩ := by decide

end PrimeTable

/-! ## Factorials -/

namespace Fact

/-- The first `n` factorials. -/
def facts (n : Nat) : List Int := (List.range n).map fun k => (Nat.factorial k : Int)

theorem facts_succ (n : Nat) : facts (n + 1) = facts n ++ [(Nat.factorial n : Int)] := by
  simp [facts, List.range_succ]

theorem get_facts {n k : Nat} (h : k < n) : Res.get (facts n) k = .ok (Nat.factorial k : Int) := by
  unfold Res.get facts
  rw [List.getElem?_map, List.getElem?_range h]
  rfl

theorem fact12 : Nat.factorial 12 = 479001600 := by decide
theorem fact13 : Nat.factorial 13 = 6227020800 := by decide

theorem mul_fact {i : Nat} (hi : 1 ≤ i) :
    mulInt32 (Nat.factorial (i - 1) : Int) i = if i ≤ 12 then .ok (Nat.factorial i : Int) else .ub := by
  have he : (Nat.factorial (i - 1) : Int) * i = (Nat.factorial i : Int) := by
    obtain ⟨j, rfl⟩ : ∃ j, i = j + 1 := ⟨i - 1, by omega⟩
    rw [Nat.add_sub_cancel, Nat.factorial_succ]
    push_cast
    ring
  unfold mulInt32
  rw [he]
  by_cases c : i ≤ 12
  · have h1 : Nat.factorial i ≤ 479001600 := by rw [← fact12]; exact Nat.factorial_le c
    rw [if_pos c, if_pos (by omega)]
  · have h1 : 6227020800 ≤ Nat.factorial i := by rw [← fact13]; exact Nat.factorial_le (by omega)
    rw [if_neg c, if_neg (by omega)]

theorem fill_ok : ∀ (k i : Nat), 1 ≤ i → i ≤ 13 → fill k i (facts i) = if i + k ≤ 13 then .ok (facts (i + k)) else .ub := by
  intro k
  induction k with
  | zero => intro i _ h; rw [if_pos (by omega)]; rfl
  | succ k ih =>
    intro i h1 h2
    unfold fill
    rw [get_facts (by omega)]
    simp only [Res.ok_bind]
    rw [mul_fact h1]
    by_cases c : i ≤ 12
    · rw [if_pos c]
      simp only [Res.ok_bind]
      rw [← facts_succ, ih (i + 1) (by omega) (by omega)]
      have : i + 1 + k = i + (k + 1) := by omega
      rw [this]
    · rw [if_neg c, if_neg (by omega)]
      rfl

/-- The table after some queries: the first `max` factorials. -/
theorem get_ok {n : Nat} (h1 : 1 ≤ n) (h2 : n ≤ 13) (k : Nat) :
    get (facts n) k = if k ≤ 12 then .ok ((Nat.factorial k : Int), facts (max n (k + 1))) else .ub := by
  have hl : (facts n).length = n := by simp [facts]
  unfold get
  rw [hl]
  by_cases c : k < n
  · rw [if_pos c, get_facts c, if_pos (by omega), max_eq_left (by omega)]
    rfl
  · rw [if_neg c, fill_ok _ _ h1 h2]
    have : n + (k + 1 - n) = k + 1 := by omega
    rw [this, max_eq_right (by omega)]
    by_cases d : k ≤ 12
    · rw [if_pos (by omega), if_pos d]
      simp only [Res.ok_bind]
      rw [get_facts (by omega)]
      rfl
    · rw [if_neg (by omega), if_neg d]
      rfl

/-- The results of a list of queries. -/
def queries (f : List Int) : List Nat → Res (List Int)
  | [] => .ok []
  | k :: ks => do
    let r ← get f k
    let rest ← queries r.2 ks
    .ok (r.1 :: rest)

/-- In whatever order and how often factorials up to 12 are asked for, the answers are the factorials. -/
theorem C62_factorial (ks : List Nat) (h : ∀ k ∈ ks, k ≤ 12) :
    queries init ks = .ok (ks.map fun k => (Nat.factorial k : Int)) := by
  have key : ∀ (ks : List Nat) (n : Nat), 1 ≤ n → n ≤ 13 → (∀ k ∈ ks, k ≤ 12) →
      queries (facts n) ks = .ok (ks.map fun k => (Nat.factorial k : Int)) := by
    intro ks
    induction ks with
    | nil => intro n _ _ _; rfl
    | cons k ks ih =>
      intro n h1 h2 h
      have hk := h k List.mem_cons_self
      unfold queries
      rw [get_ok h1 h2, if_pos hk]
      simp only [Res.ok_bind]
      rw [ih _ (by omega) (by omega) (fun j hj => h j (List.mem_cons_of_mem _ hj))]
      rfl
  exact key ks 1 (le_refl _) (by omega) h

/-- The factorial of 13 and larger numbers overflows `int`: undefined after any queries; and the number does not fit the result
type. -/
theorem C62_overflow (ks : List Nat) (h : ∀ k ∈ ks, k ≤ 12) {k : Nat} (hk : 13 ≤ k) :
    queries init (ks ++ [k]) = .ub ∧ (2147483647 : Int) < Nat.factorial k := by
  constructor
  · have key : ∀ (ks : List Nat) (n : Nat), 1 ≤ n → n ≤ 13 → (∀ k ∈ ks, k ≤ 12) → queries (facts n) (ks ++ [k]) = .ub := by
      intro ks
      induction ks with
      | nil =>
        intro n h1 h2 _
        show queries (facts n) [k] = .ub
        unfold queries
        rw [get_ok h1 h2, if_neg (by omega)]
        rfl
      | cons j ks ih =>
        intro n h1 h2 h
        have hj := h j List.mem_cons_self
        rw [List.cons_append]
        unfold queries
        rw [get_ok h1 h2, if_pos hj]
        simp only [Res.ok_bind]
        rw [ih _ (by omega) (by omega) (fun j hj => h j (List.mem_cons_of_mem _ hj))]
        rfl
    exact key ks 1 (le_refl _) (by omega) h
  · have h1 : 6227020800 ≤ Nat.factorial k := by rw [← fact13]; exact Nat.factorial_le hk
    omega

example : queries init [5, 0, 12, 3] = .ok [120, 1, 479001600, 6] := by decide

end Fact

/-! ## Factored rationals -/

namespace Frat

/-- The value of a factored rational. -/
def val (f : Frat) : ℚ := (f.map fun e => (e.1 : ℚ) ^ e.2).prod

/-- The exponent of a prime. -/
def exp (f : Frat) (p : Nat) : Int := (OMap.find? p f).getD 0

/-- Keys are prime, in increasing order. -/
def Good (f : Frat) : Prop := OMap.Sorted f ∧ ∀ e ∈ f, Nat.Prime e.1

theorem val_nil : val [] = 1 := rfl

theorem val_cons (e : Nat × Int) (f : Frat) : val (e :: f) = (e.1 : ℚ) ^ e.2 * val f := by simp [val]

theorem val_set {p : Nat} (hp : p ≠ 0) (e : Int) : ∀ {f : Frat}, OMap.Sorted f →
    val (OMap.set p (exp f p + e) f) = val f * (p : ℚ) ^ e := by
  have hpq : (p : ℚ) ≠ 0 := by exact_mod_cast hp
  intro f
  induction f with
  | nil => intro _; simp [OMap.set, exp, OMap.find?, val]
  | cons a f ih =>
    obtain ⟨q, b⟩ := a
    intro hs
    obtain ⟨h1, h2⟩ := OMap.sorted_cons.mp hs
    unfold OMap.set
    by_cases c : p < q
    · rw [if_pos c]
      have : exp ((q, b) :: f) p = 0 := by
        unfold exp
        rw [OMap.find?_none_of_lt]
        · rfl
        · intro x hx
          rcases List.mem_cons.mp hx with rfl | hx
          · exact c
          · exact lt_trans c (h1 x hx)
      rw [this, val_cons]
      dsimp only
      rw [zero_add, mul_comm]
    · rw [if_neg c]
      by_cases d : p = q
      · subst d
        rw [if_pos rfl]
        have : exp ((p, b) :: f) p = b := by simp [exp, OMap.find?]
        rw [this, val_cons, val_cons]
        dsimp only
        rw [zpow_add₀ hpq]
        ring
      · rw [if_neg d]
        have : exp ((q, b) :: f) p = exp f p := by simp [exp, OMap.find?, d]
        rw [this, val_cons, val_cons, ih h2]
        ring

theorem val_addAt {p : Nat} (hp : p ≠ 0) (e : Int) {f : Frat} (h : OMap.Sorted f) : val (addAt p e f) = val f * (p : ℚ) ^ e :=
  val_set hp e h

theorem Good.addAt {f : Frat} (h : Good f) {p : Nat} (hp : Nat.Prime p) (e : Int) : Good (addAt p e f) := by
  refine ⟨h.1.set _ _, fun x hx => ?_⟩
  rcases OMap.mem_set_key hx with rfl | hx
  · exact hp
  · exact h.2 x hx

theorem exp_addAt (f : Frat) (p q : Nat) (e : Int) : exp (addAt p e f) q = if q = p then exp f p + e else exp f q := by
  unfold exp addAt
  rw [OMap.find?_set]
  split <;> rfl

theorem good_nil : Good [] := ⟨OMap.sorted_nil, by simp⟩

theorem factor_ok : ∀ (tab : List Nat) (n : Nat) (f : Frat), (∀ p ∈ tab, Nat.Prime p) → 1 ≤ n → Good f →
    (∀ p, Nat.Prime p → p ∣ n → p ∈ tab) → ∃ f', factor tab n f = .ok f' ∧ Good f' ∧ val f' = val f * n := by
  intro tab
  induction tab with
  | nil =>
    intro n f _ hn hf hall
    have : n = 1 := by
      by_contra hne
      have := hall _ (Nat.minFac_prime hne) (Nat.minFac_dvd n)
      cases this
    subst this
    exact ⟨f, rfl, hf, by simp⟩
  | cons p tab ih =>
    intro n f hp hn hf hall
    have hpp := hp p List.mem_cons_self
    obtain ⟨m, k, e, h1, h2, h3⟩ := divOut_ok hpp.two_le (n + 1) n hn (by omega)
    unfold factor
    rw [Int.natAbs_natCast, e]
    simp only [Res.ok_bind]
    have hv : val (addAt p k f) * m = val f * n := by
      rw [val_addAt hpp.ne_zero _ hf.1, h1]
      push_cast
      rw [zpow_natCast]
      ring
    by_cases c : m = 1
    · subst c
      rw [if_pos (by rfl)]
      refine ⟨_, rfl, hf.addAt hpp _, ?_⟩
      rw [← hv]
      simp
    · rw [if_neg (by exact_mod_cast c)]
      obtain ⟨f', e', a1, a2⟩ := ih m (addAt p k f) (fun q hq => hp q (List.mem_cons_of_mem _ hq)) h3 (hf.addAt hpp _) (by
        intro q hq hd
        have hqn : q ∣ n := hd.trans ⟨p ^ k, by rw [h1]; ring⟩
        rcases List.mem_cons.mp (hall q hq hqn) with rfl | h
        · exact absurd hd h2
        · exact h)
      exact ⟨f', e', a1, by rw [a2, hv]⟩

/-- Construction from a positive integer represents it, whatever the table of primes held before. -/
theorem C63_ofInt {t : PrimeTable} (ht : PrimeTable.Made t) {n : Nat} (hn : 1 ≤ n) :
    ∃ f t', ofInt t n = .ok (f, t') ∧ PrimeTable.Made t' ∧ Good f ∧ val f = n := by
  obtain ⟨N, hN⟩ := PrimeTable.made_full ht
  obtain ⟨t', e, h'⟩ := PrimeTable.full_extend hN n
  obtain ⟨f, e2, g, hv⟩ := factor_ok t'.tab n [] (by
    rw [h'.2.2]; exact fun p hp => (PrimeTable.mem_primesUpTo.mp hp).2) hn good_nil (by
    intro p hp hd
    rw [h'.2.2, PrimeTable.mem_primesUpTo]
    have := Nat.le_of_dvd hn hd
    refine ⟨?_, hp⟩
    rw [Int.toNat_natCast]
    omega)
  refine ⟨f, t', ?_, .extend _ ht e, g, by rw [hv, val_nil, one_mul]⟩
  unfold ofInt
  rw [e]
  simp only [Res.ok_bind]
  rw [e2]
  rfl

theorem val_fold (s : Int → Int) : ∀ (g f : Frat), Good f → (∀ e ∈ g, Nat.Prime e.1) →
    Good (g.foldl (fun r x => addAt x.1 (s x.2) r) f) ∧
      val (g.foldl (fun r x => addAt x.1 (s x.2) r) f) = val f * (g.map fun e => (e.1 : ℚ) ^ s e.2).prod := by
  intro g
  induction g with
  | nil => intro f hf _; exact ⟨hf, by simp⟩
  | cons e g ih =>
    intro f hf hg
    have hp := hg e List.mem_cons_self
    obtain ⟨h1, h2⟩ := ih (addAt e.1 (s e.2) f) (hf.addAt hp _) (fun x hx => hg x (List.mem_cons_of_mem _ hx))
    refine ⟨h1, ?_⟩
    rw [List.foldl_cons, h2, val_addAt hp.ne_zero _ hf.1]
    simp [mul_assoc]

/-- Products are exact. -/
theorem C63_mul {f g : Frat} (hf : Good f) (hg : Good g) : Good (mul f g) ∧ val (mul f g) = val f * val g :=
  val_fold id g f hf hg.2

theorem val_ne_zero {f : Frat} (hf : ∀ e ∈ f, Nat.Prime e.1) : val f ≠ 0 := by
  induction f with
  | nil => simp [val]
  | cons e f ih =>
    rw [val_cons]
    refine mul_ne_zero (zpow_ne_zero _ ?_) (ih (fun x hx => hf x (List.mem_cons_of_mem _ hx)))
    exact_mod_cast (hf e List.mem_cons_self).ne_zero

/-- Quotients are exact. -/
theorem C63_div {f g : Frat} (hf : Good f) (hg : Good g) : Good (div f g) ∧ val (div f g) = val f / val g := by
  obtain ⟨h1, h2⟩ := val_fold (fun x => -x) g f hf hg.2
  refine ⟨h1, ?_⟩
  have : (g.map fun e => (e.1 : ℚ) ^ (-e.2)).prod = (val g)⁻¹ := by
    unfold val
    rw [List.prod_inv]
    rw [List.map_map]
    congr 1
    apply List.map_congr_left
    intro e _
    simp
  unfold div
  rw [h2, this, div_eq_mul_inv]

/-- Construction from numerator and denominator. -/
theorem C63_ofInts {t : PrimeTable} (ht : PrimeTable.Made t) {p q : Nat} (hp : 1 ≤ p) (hq : 1 ≤ q) :
    ∃ f t', ofInts t p q = .ok (f, t') ∧ PrimeTable.Made t' ∧ Good f ∧ val f = (p : ℚ) / q := by
  obtain ⟨f, t1, e1, h1, g1, v1⟩ := C63_ofInt ht hp
  obtain ⟨g, t2, e2, h2, g2, v2⟩ := C63_ofInt h1 hq
  obtain ⟨gd, vd⟩ := C63_div g1 g2
  refine ⟨div f g, t2, ?_, h2, gd, by rw [vd, v1, v2]⟩
  unfold ofInts
  rw [e1]
  simp only [Res.ok_bind]
  rw [e2]
  rfl

theorem padic_val {f : Frat} (hf : Good f) {p : Nat} (hp : Nat.Prime p) : padicValRat p (val f) = exp f p := by
  have : Fact p.Prime := ⟨hp⟩
  induction f with
  | nil => simp [val, exp, OMap.find?]
  | cons e f ih =>
    obtain ⟨q, b⟩ := e
    have hs := OMap.sorted_cons.mp hf.1
    have hq : Nat.Prime q := hf.2 (q, b) List.mem_cons_self
    have : Fact q.Prime := ⟨hq⟩
    have hf' : Good f := ⟨hs.2, fun x hx => hf.2 x (List.mem_cons_of_mem _ hx)⟩
    have hq0 : (q : ℚ) ≠ 0 := by exact_mod_cast hq.ne_zero
    rw [val_cons]
    dsimp only
    rw [padicValRat.mul (zpow_ne_zero _ hq0) (val_ne_zero hf'.2), padicValRat.zpow, ih hf', padicValRat.of_nat]
    by_cases c : p = q
    · subst c
      rw [padicValNat_self]
      have h0 : exp f p = 0 := by
        unfold exp
        rw [OMap.find?_none_of_lt hs.1]
        rfl
      rw [h0]
      simp [exp, OMap.find?]
    · rw [padicValNat_primes c]
      simp [exp, OMap.find?, c]

theorem exp_fold (s : Int → Int) : ∀ (g f : Frat), OMap.Sorted g → ∀ p,
    exp (g.foldl (fun r x => addAt x.1 (s x.2) r) f) p = exp f p + (if (OMap.find? p g).isSome then s (exp g p) else 0) := by
  intro g
  induction g with
  | nil => intro f _ p; simp [OMap.find?]
  | cons e g ih =>
    obtain ⟨q, b⟩ := e
    intro f hs p
    have hs' := OMap.sorted_cons.mp hs
    rw [List.foldl_cons, ih _ hs'.2, exp_addAt]
    dsimp only
    by_cases c : p = q
    · subst c
      have h0 : OMap.find? p g = none := OMap.find?_none_of_lt hs'.1
      simp [h0, exp, OMap.find?]
    · simp [c, exp, OMap.find?]

/-- Two factored rationals have the same value exactly if every prime has the same exponent. -/
theorem C63_eq {f g : Frat} (hf : Good f) (hg : Good g) : val f = val g ↔ ∀ p, Nat.Prime p → exp f p = exp g p := by
  constructor
  · intro h p hp
    rw [← padic_val hf hp, ← padic_val hg hp, h]
  · intro h
    obtain ⟨hd, hv⟩ := C63_div hf hg
    have h1 : val (div f g) = 1 := by
      have hz : ∀ e ∈ div f g, e.2 = 0 := by
        intro e he
        have hfe := OMap.find?_of_mem hd.1 (show (e.1, e.2) ∈ div f g from he)
        have hx : exp (div f g) e.1 = e.2 := by unfold exp; rw [hfe]; rfl
        rw [← hx]
        unfold div
        rw [exp_fold (fun x => -x) g f hg.1, h e.1 (hd.2 e he)]
        split
        · omega
        · rename_i hn
          have : exp g e.1 = 0 := by
            unfold exp
            cases hh : OMap.find? e.1 g with
            | none => rfl
            | some v => rw [hh] at hn; exact absurd rfl hn
          omega
      unfold val
      rw [show (div f g).map (fun e => (e.1 : ℚ) ^ e.2) = (div f g).map (fun _ => (1 : ℚ)) from
        List.map_congr_left (fun e he => by rw [hz e he, zpow_zero])]
      simp
    rw [h1] at hv
    have h0 := val_ne_zero hg.2
    field_simp at hv
    exact hv.symm

/-- `p_not_one` says whether the reduced numerator differs from 1, `q_not_one` whether the reduced denominator does. -/
theorem C109_num_den {f : Frat} (hf : Good f) :
    (pNotOne f = true ↔ (val f).num ≠ 1) ∧ (qNotOne f = true ↔ (val f).den ≠ 1) := by
  have hexp : ∀ e ∈ f, padicValRat e.1 (val f) = e.2 := by
    intro e he
    rw [padic_val hf (hf.2 e he)]
    have := OMap.find?_of_mem hf.1 (show (e.1, e.2) ∈ f from he)
    unfold exp
    rw [this]; rfl
  constructor
  · constructor
    · intro h hnum
      unfold pNotOne at h
      obtain ⟨e, he, hpos⟩ := List.any_eq_true.mp h
      have hpos' : e.2 > 0 := by simpa using hpos
      have := hexp e he
      rw [padicValRat_def, hnum] at this
      simp at this
      omega
    · intro h
      by_contra hn
      apply h
      have hle : ∀ e ∈ f, e.2 ≤ 0 := by
        intro e he
        by_contra c
        apply hn
        unfold pNotOne
        rw [List.any_eq_true]
        exact ⟨e, he, by simpa using c⟩
      have : ∃ N : Nat, 0 < N ∧ val f = (N : ℚ)⁻¹ := by
        have hpr := hf.2
        clear hn h hf hexp
        induction f with
        | nil => exact ⟨1, by norm_num, by simp [val]⟩
        | cons e f ih =>
          obtain ⟨N, hN, hv⟩ := ih (fun x hx => hle x (List.mem_cons_of_mem _ hx)) (fun x hx => hpr x (List.mem_cons_of_mem _ hx))
          have h0 := hle e List.mem_cons_self
          obtain ⟨k, hk⟩ : ∃ k : Nat, e.2 = -(k : Int) := ⟨e.2.natAbs, by omega⟩
          refine ⟨e.1 ^ k * N, Nat.mul_pos (Nat.pow_pos (hpr e List.mem_cons_self).pos) hN, ?_⟩
          rw [val_cons, hv, hk, zpow_neg, zpow_natCast]
          push_cast
          rw [mul_inv]
      obtain ⟨N, hN, hv⟩ := this
      rw [hv]
      exact Rat.inv_natCast_num_of_pos hN
  · constructor
    · intro h hden
      unfold qNotOne at h
      obtain ⟨e, he, hneg⟩ := List.any_eq_true.mp h
      have hneg' : e.2 < 0 := by simpa using hneg
      have := hexp e he
      rw [padicValRat_def, hden] at this
      simp at this
      omega
    · intro h
      by_contra hn
      apply h
      have hle : ∀ e ∈ f, 0 ≤ e.2 := by
        intro e he
        by_contra c
        apply hn
        unfold qNotOne
        rw [List.any_eq_true]
        exact ⟨e, he, by simpa using c⟩
      have : ∃ N : Nat, val f = (N : ℚ) := by
        clear hn h hf hexp
        induction f with
        | nil => exact ⟨1, by simp [val]⟩
        | cons e f ih =>
          obtain ⟨N, hv⟩ := ih (fun x hx => hle x (List.mem_cons_of_mem _ hx))
          have h0 := hle e List.mem_cons_self
          obtain ⟨k, hk⟩ : ∃ k : Nat, e.2 = (k : Int) := ⟨e.2.natAbs, by omega⟩
          refine ⟨e.1 ^ k * N, ?_⟩
          rw [val_cons, hv, hk, zpow_natCast]
          push_cast
          rfl
      obtain ⟨N, hv⟩ := this
      rw [hv]
      exact Rat.den_natCast N

/-- 12/45. -/
example : ofInts PrimeTable.init 12 45 = .ok ([(2, 2), (3, -1), (5, -1)], ⟨PrimeTable.primesUpTo 45, 45⟩) := by decide
example : Good [(2, 2), (3, -1), (5, -1)] := by
  refine ⟨by unfold OMap.Sorted; decide, ?_⟩
  decide
example : PrimeTable.Made PrimeTable.init := .init

/-- **Zero**: with an empty table the object represents 1; with a non-empty table the construction does not end. -/
theorem C110_zero_fails : ofInt PrimeTable.init 0 = .ok ([], PrimeTable.init) ∧ val [] = 1 ∧
    (PrimeTable.init.extend 2 >>= fun t => ofInt t 0) = .ub := ⟨by decide, rfl, by decide⟩

/-- **Negative integers**: with an empty table the object represents 1; with the right primes in the table it loses the sign. -/
theorem C110_negative_fails : ofInt PrimeTable.init (-6) = .ok ([], PrimeTable.init) ∧
    (PrimeTable.init.extend 6 >>= fun t => ofInt t (-6)) = .ok ([(2, 1), (3, 1), (5, 0)], ⟨[2, 3, 5], 6⟩) ∧
    val [(2, 1), (3, 1), (5, 0)] = 6 := by
  refine ⟨by decide, by decide, ?_⟩
  norm_num [val]

end Frat

/-! ## Factored factorials -/

namespace FFact

/-- The state holds the factorials of `0 .. n-1`. -/
def Holds (s : List Frat × PrimeTable) : Prop :=
  PrimeTable.Made s.2 ∧ s.1 ≠ [] ∧ ∀ (k : Nat) (f : Frat), s.1[k]? = some f → Frat.Good f ∧ Frat.val f = (Nat.factorial k : ℚ)

theorem extendLoop_ok : ∀ (n : Nat) (s : List Frat × PrimeTable), Holds s →
    ∃ s', extendLoop n s.1.length s = .ok s' ∧ Holds s' ∧ s'.1.length = s.1.length + n := by
  intro n
  induction n with
  | zero => intro s h; exact ⟨s, rfl, h, rfl⟩
  | succ n ih =>
    intro s h
    obtain ⟨h1, h2, h3⟩ := h
    have hpos : 0 < s.1.length := List.length_pos_iff.mpr h2
    obtain ⟨g, t', e, a1, a2, a3⟩ := Frat.C63_ofInt h1 (n := s.1.length) hpos
    have hlast : s.1.getLast? = some (s.1.getLast h2) := List.getLast?_eq_some_getLast h2
    have hidx : s.1[s.1.length - 1]? = some (s.1.getLast h2) := by
      rw [← List.getLast?_eq_getElem?, hlast]
    obtain ⟨b1, b2⟩ := h3 _ _ hidx
    obtain ⟨m1, m2⟩ := Frat.C63_mul b1 a2
    have hH : Holds (s.1 ++ [Frat.mul (s.1.getLast h2) g], t') := by
      refine ⟨a1, by simp, fun k f hk => ?_⟩
      by_cases c : k < s.1.length
      · dsimp only at hk
        rw [List.getElem?_append_left c] at hk
        exact h3 k f hk
      · dsimp only at hk
        rw [List.getElem?_append_right (by omega)] at hk
        have hk0 : k - s.1.length = 0 := by
          have := (List.getElem?_eq_some_iff.mp hk).1
          simp at this; omega
        rw [hk0] at hk
        simp at hk
        subst hk
        have hke : k = (s.1.length - 1) + 1 := by omega
        refine ⟨m1, ?_⟩
        rw [m2, b2, a3, hke, Nat.factorial_succ]
        have : (s.1.length : ℚ) = ((s.1.length - 1 + 1 : Nat) : ℚ) := by
          congr 1; omega
        rw [this]
        push_cast
        ring
    obtain ⟨s', e', c1, c2⟩ := ih _ hH
    refine ⟨s', ?_, c1, ?_⟩
    · unfold extendLoop
      rw [e]
      simp only [Res.ok_bind, hlast]
      simpa using e'
    · rw [c2]; simp; omega

/-- The factored factorials: every query, after any others, gives an object with value `x!` (of any size), and the table of primes
stays correct. -/
theorem C111_ffactorial {t : PrimeTable} (ht : PrimeTable.Made t) (xs : List Nat) :
    ∃ s0, init t = .ok s0 ∧ ∃ fs s', xs.foldl (fun (acc : Res (List Frat × List Frat × PrimeTable)) x => acc >>= fun a => do
        let r ← get a.2 x
        .ok (a.1 ++ [r.1], r.2)) (.ok ([], s0)) = .ok (fs, s') ∧ fs.map Frat.val = xs.map fun x => (Nat.factorial x : ℚ) := by
  obtain ⟨f, t', e, h1, h2, h3⟩ := Frat.C63_ofInt ht (n := 1) (le_refl _)
  have hH : Holds ([f], t') := by
    refine ⟨h1, by simp, fun k g hk => ?_⟩
    have hk0 : k = 0 := by
      have := (List.getElem?_eq_some_iff.mp hk).1
      simp at this; omega
    subst hk0
    simp at hk
    subst hk
    exact ⟨h2, by rw [h3]; simp⟩
  refine ⟨([f], t'), ?_, ?_⟩
  · unfold init
    have e' : Frat.ofInt t 1 = .ok (f, t') := by simpa using e
    rw [e']
    rfl
  · have key : ∀ (xs : List Nat) (acc : List Frat) (s : List Frat × PrimeTable), Holds s →
        ∃ fs s', xs.foldl (fun (acc : Res (List Frat × List Frat × PrimeTable)) x => acc >>= fun a => do
          let r ← get a.2 x
          .ok (a.1 ++ [r.1], r.2)) (.ok (acc, s)) = .ok (fs, s') ∧
          fs.map Frat.val = acc.map Frat.val ++ xs.map fun x => (Nat.factorial x : ℚ) := by
      intro xs
      induction xs with
      | nil => intro acc s _; exact ⟨acc, s, rfl, by simp⟩
      | cons x xs ih =>
        intro acc s hs
        have : ∃ g s1, get s x = .ok (g, s1) ∧ Holds s1 ∧ Frat.val g = (Nat.factorial x : ℚ) := by
          unfold get
          by_cases c : x < s.1.length
          · rw [if_pos c]
            simp only [Res.ok_bind]
            refine ⟨s.1[x], s, ?_, hs, (hs.2.2 x _ (List.getElem?_eq_getElem c)).2⟩
            unfold Res.get
            rw [List.getElem?_eq_getElem c]
            rfl
          · rw [if_neg c]
            obtain ⟨s1, e1, g1, g2⟩ := extendLoop_ok (x + 1 - s.1.length) s hs
            have hx : x < s1.1.length := by omega
            refine ⟨s1.1[x], s1, ?_, g1, (g1.2.2 x _ (List.getElem?_eq_getElem hx)).2⟩
            rw [e1]
            simp only [Res.ok_bind]
            unfold Res.get
            rw [List.getElem?_eq_getElem hx]
            rfl
        obtain ⟨g, s1, e1, g1, g2⟩ := this
        obtain ⟨fs, s', e2, h2⟩ := ih (acc ++ [g]) s1 g1
        refine ⟨fs, s', ?_, ?_⟩
        · rw [List.foldl_cons]
          simp only [Res.ok_bind, e1]
          exact e2
        · rw [h2]; simp [g2]
    obtain ⟨fs, s', e2, h4⟩ := key xs [] _ hH
    exact ⟨fs, s', e2, by simpa using h4⟩

end FFact

/-! ## Cyclic groups -/

namespace Cyc

/-- A residue. -/
def Residue (x : Cyc) : Prop := 0 ≤ x.v ∧ x.v < x.n

/-- Sums and negatives of residues are congruent to the integer results and are residues again. -/
theorem C64_add_neg_partial {x y : Cyc} (hx : Residue x) (hy : Residue y) (hn : y.n = x.n) :
    (∃ z, x.add y = .ok z ∧ z.n = x.n ∧ Residue z ∧ x.n ∣ x.v + y.v - z.v) ∧
    (∃ z, x.neg = .ok z ∧ z.n = x.n ∧ Residue z ∧ x.n ∣ -x.v - z.v) := by
  obtain ⟨a1, a2⟩ := hx
  obtain ⟨b1, b2⟩ := hy
  have h0 : x.n ≠ 0 := by omega
  have hpos : 0 < x.n := by omega
  refine ⟨⟨⟨x.n, Int.tmod (x.v + y.v) x.n⟩, by unfold add mk'; rw [if_neg h0], rfl, ⟨?_, ?_⟩, ?_⟩,
    ⟨⟨x.n, Int.tmod (x.n - x.v) x.n⟩, by unfold neg mk'; rw [if_neg h0], rfl, ⟨?_, ?_⟩, ?_⟩⟩
  · exact Int.tmod_nonneg _ (by omega)
  · exact Int.tmod_lt_of_pos _ hpos
  · dsimp only
    exact ⟨Int.tdiv (x.v + y.v) x.n, by have := Int.mul_tdiv_add_tmod (x.v + y.v) x.n; omega⟩
  · exact Int.tmod_nonneg _ (by omega)
  · exact Int.tmod_lt_of_pos _ hpos
  · dsimp only
    refine ⟨Int.tdiv (x.n - x.v) x.n - 1, ?_⟩
    have := Int.mul_tdiv_add_tmod (x.n - x.v) x.n
    rw [Int.mul_sub]
    omega

/-- Differences are congruent to the integer difference, but are residues only if the first operand is not the smaller one;
otherwise the plain negative difference is stored. -/
theorem C64_sub_exact {x y : Cyc} (hx : Residue x) (hy : Residue y) (hn : y.n = x.n) :
    ∃ z, x.sub y = .ok z ∧ z.n = x.n ∧ z.v = x.v - y.v ∧ (Residue z ↔ y.v ≤ x.v) := by
  obtain ⟨a1, a2⟩ := hx
  obtain ⟨b1, b2⟩ := hy
  have h0 : x.n ≠ 0 := by omega
  have hpos : 0 < x.n := by omega
  have hv : Int.tmod (x.v - y.v) x.n = x.v - y.v := by
    by_cases c : y.v ≤ x.v
    · exact Int.tmod_eq_of_lt (by omega) (by omega)
    · have : x.v - y.v = -(y.v - x.v) := by omega
      rw [this, Int.neg_tmod, Int.tmod_eq_of_lt (by omega) (by omega)]
  refine ⟨⟨x.n, x.v - y.v⟩, ?_, rfl, rfl, ?_⟩
  · unfold sub mk'
    rw [if_neg h0, hv]
  · unfold Residue
    dsimp only
    omega

/-- **Difference leaves the range.** -/
theorem C64_sub_fails : ∃ x y z : Cyc, Residue x ∧ Residue y ∧ y.n = x.n ∧ x.sub y = .ok z ∧ ¬ Residue z :=
  ⟨⟨5, 1⟩, ⟨5, 3⟩, ⟨5, -2⟩, by unfold Residue; decide, by unfold Residue; decide, rfl, by decide, by unfold Residue; decide⟩

example : Residue ⟨5, 3⟩ := by unfold Residue; decide

end Cyc

/-! ## The determinant -/

section Det

open Matrix

variable {α : Type} [CommRing α]

/-- The memory the view covers holds the matrix `A`: entry `(i,j)` lies `i` row strides and `j` column strides behind the offset. -/
def Reads (m : Buf α) (v : View) (A : Matrix (Fin 3) (Fin 3) α) : Prop :=
  ∃ s t, v.strides = [s, t] ∧ ∀ i j : Fin 3, m (v.off + ((i : Nat) * s + (j : Nat) * t)) = some (A i j)

/-- The function returns the determinant of the matrix it reads. -/
theorem C65_det {m : Buf α} {v : View} (hd : v.dims = [3, 3]) {A : Matrix (Fin 3) (Fin 3) α} (h : Reads m v A) :
    determinant m v = .ok A.det := by
  have r : ∀ (i j : Nat) (hi : i < 3) (hj : j < 3), rd2 m v i j = .ok (A ⟨i, hi⟩ ⟨j, hj⟩) := by
    intro i j hi hj
    obtain ⟨s, t, hs, h⟩ := h
    simp [rd2, hs, Buf.read, h ⟨i, hi⟩ ⟨j, hj⟩]
  unfold determinant
  rw [hd]
  simp only [Res.get, List.length_cons, List.length_nil, List.getElem?_cons_zero, List.getElem?_cons_succ, Res.ok_bind, decide_true,
    Res.assrt_true, r 0 0 (by decide) (by decide), r 1 1 (by decide) (by decide), r 2 2 (by decide) (by decide),
    r 1 2 (by decide) (by decide), r 2 1 (by decide) (by decide), r 0 1 (by decide) (by decide), r 2 0 (by decide) (by decide),
    r 1 0 (by decide) (by decide), r 0 2 (by decide) (by decide)]
  rw [Matrix.det_fin_three]
  congr 1
  simp only [Fin.mk_zero, Fin.mk_one, Fin.reduceFinMk]
  ring

/-- It is multiplicative and alternating. -/
theorem C65_mul_alt {m : Buf α} {u v w : View} (hu : u.dims = [3, 3]) (hv : v.dims = [3, 3]) (hw : w.dims = [3, 3])
    {A B : Matrix (Fin 3) (Fin 3) α} (hA : Reads m u A) (hB : Reads m v B) (hAB : Reads m w (A * B)) :
    (∃ a b, determinant m u = .ok a ∧ determinant m v = .ok b ∧ determinant m w = .ok (a * b)) ∧
    (∀ i j : Fin 3, i ≠ j → A i = A j → determinant m u = .ok 0) := by
  constructor
  · exact ⟨A.det, B.det, C65_det hu hA, C65_det hv hB, by rw [C65_det hw hAB, Matrix.det_mul]⟩
  · intro i j hij e
    rw [C65_det hu hA, Matrix.det_zero_of_row_eq hij e]

/-- Other shapes are refused. -/
theorem C65_shape (m : Buf α) (v : View) (h : v.dims ≠ [3, 3]) : determinant m v = .throw := by
  unfold determinant
  obtain ⟨o, dims, st⟩ := v
  dsimp only at h ⊢
  match dims, h with
  | [], _ => rfl
  | [a], _ => rfl
  | a :: b :: c :: l, _ => simp
  | [a, b], h =>
    by_cases c : a = b
    · subst c
      have : a ≠ 3 := fun e => h (by rw [e])
      simp [Res.get, this]
    · simp [Res.get, c]

example : determinant (Buf.ofList [2, 0, 0, 0, 3, 1, 0, 0, (4 : Int)]) ⟨0, [3, 3], [3, 1]⟩ = .ok 24 := by decide
example : Reads (Buf.ofList [2, 0, 0, 0, 3, 1, 0, 0, (4 : Int)]) ⟨0, [3, 3], [3, 1]⟩ !![2, 0, 0; 0, 3, 1; 0, 0, 4] :=
  ⟨3, 1, rfl, by decide⟩

end Det

end Cnine
