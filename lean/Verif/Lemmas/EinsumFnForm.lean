import Verif.Lemmas.EinsumForm
import Verif.Model.EinsumFn

/-! # The constructor of the einsum functors -/

namespace Cnine
namespace EinsumFn

open Einsum (letters positions mem_letters letters_nodup find_letters mem_positions positions_append positions_cons
  positions_eq_nil positions_map common onlyIn)

theorem findAll_eq (c : Char) (hc : c ≠ 'x') : ∀ (k : Nat) (s : List Char) (r : List Nat), s.count c < k →
    findAll k s c r = (r ++ positions c s, s.map fun d => if d = c then 'x' else d) := by
  intro k
  induction k with
  | zero => intro s r h; omega
  | succ k ih =>
    intro s r h
    unfold findAll
    split
    · rename_i hf
      have hn : c ∉ s := by
        intro hm
        have := List.findIdx?_eq_none_iff.1 hf c hm
        simp at this
      rw [positions_eq_nil.2 hn, List.append_nil]
      congr 1
      exact (List.map_id s).symm.trans (List.map_congr_left fun d hd => by
        rw [if_neg (fun e : d = c => hn (e ▸ hd))]; rfl)
    · rename_i p hf
      obtain ⟨hp, h1, h2⟩ := List.findIdx?_eq_some_iff_getElem.1 hf
      have h1 : s[p] = c := by simpa using h1
      have hs : s = s.take p ++ c :: s.drop (p + 1) := by
        rw [← h1]; simp
      have hpre : c ∉ s.take p := by
        intro hm
        obtain ⟨j, hj, e⟩ := List.mem_iff_getElem.1 hm
        rw [List.length_take] at hj
        have := h2 j (by omega)
        rw [List.getElem_take] at e
        simp [e] at this
      have hset : s.set p 'x' = s.take p ++ 'x' :: s.drop (p + 1) := by
        rw [List.set_eq_take_append_cons_drop, if_pos hp]
      have hl : (s.take p).length = p := by rw [List.length_take]; omega
      rw [ih (s.set p 'x') (r ++ [p]) (by
        rw [hset]
        rw [hs] at h
        simp only [List.count_append, List.count_cons, beq_self_eq_true, if_true] at h ⊢
        have : (('x' : Char) == c) = false := by simpa using fun h => hc h.symm
        simp only [this]
        simp
        omega)]
      have e1 : positions c s = p :: positions c (s.set p 'x') := by
        rw [hset]
        conv => lhs; rw [hs]
        rw [positions_append, positions_append, positions_eq_nil.2 hpre, positions_cons, positions_cons, hl]
        have : ('x' : Char) ≠ c := fun h => hc h.symm
        simp [this]
      have e2 : (s.set p 'x').map (fun d => if d = c then 'x' else d) = s.map fun d => if d = c then 'x' else d := by
        rw [hset]
        conv => rhs; rw [hs]
        have : ('x' : Char) ≠ c := fun h => hc h.symm
        simp [this]
      rw [e1, e2]
      simp

theorem findAllS_eq (c : Char) (hc : c ≠ 'x') (s : List Char) :
    findAllS s c = (positions c s, s.map fun d => if d = c then 'x' else d) := by
  have := findAll_eq c hc (s.length + 1) s [] (Nat.lt_succ_of_le List.count_le_length)
  simpa [findAllS] using this

/-- Letters already processed are overwritten by `x`. -/
def mask (D : List Char) (s : List Char) : List Char := s.map fun c => if c ∈ D then 'x' else c

theorem mask_nil (s : List Char) : mask [] s = s := by simp [mask]

theorem mask_none {D : List Char} {c : Char} {s : List Char} (h : c ∉ s) : mask (D ++ [c]) s = mask D s := by
  unfold mask
  apply List.map_congr_left
  intro d hd
  have : d ≠ c := fun e => h (e ▸ hd)
  simp [this]

/-- The letters that are not taken for the placeholder. -/
def named (s : List Char) : List Char := (letters s).filter (· ≠ 'x')

theorem mem_named {s : List Char} {c : Char} : c ∈ named s ↔ c ∈ s ∧ c ≠ 'x' := by simp [named, mem_letters]

theorem named_nodup (s : List Char) : (named s).Nodup := (letters_nodup s).filter _

theorem find_mask (D s : List Char) :
    (mask D s).find? (· != 'x') = (named s).find? (fun c => decide (c ∉ D)) := by
  unfold named
  rw [List.find?_filter, ← find_letters]
  unfold mask
  induction s with
  | nil => rfl
  | cons c s ih =>
    simp only [List.map_cons, List.find?_cons]
    by_cases h : c ∈ D
    · simpa [h] using ih
    · by_cases hx : c = 'x'
      · subst hx
        simpa [h] using ih
      · have : (c != 'x') = true := bne_iff_ne.2 hx
        simp [h, hx, this]

theorem findAllS_mask {D s : List Char} {c : Char} (hc : c ≠ 'x') (hD : c ∉ D) :
    findAllS (mask D s) c = (positions c s, mask (D ++ [c]) s) := by
  rw [findAllS_eq c hc]
  congr 1
  · apply positions_map
    intro d _
    split
    · rename_i h
      constructor
      · intro e; exact absurd e.symm hc
      · intro e; exact absurd (e ▸ h) hD
    · rfl
  · unfold mask
    rw [List.map_map]
    apply List.map_congr_left
    intro d _
    by_cases h1 : d ∈ D
    · simp [h1, Ne.symm hc]
    · by_cases h2 : d = c <;> simp [h1, h2, hD]

theorem contains_mask {D s : List Char} {c : Char} (hc : c ≠ 'x') (hD : c ∉ D) :
    (mask D s).contains c = decide (c ∈ s) := by
  rw [List.contains_eq_mem]
  congr 1
  unfold mask
  simp only [List.mem_map, eq_iff_iff]
  constructor
  · rintro ⟨d, hd, e⟩
    split at e
    · exact absurd e.symm hc
    · exact e ▸ hd
  · intro h
    exact ⟨c, h, by simp [hD]⟩

/-- State of the first loop after the letters `D`. -/
def F (xs ys rs D : List Char) : St where
  xstr := mask D xs
  ystr := mask D ys
  rstr := mask D rs
  form := { direct := (D.filter fun c => decide (c ∈ xs ++ ys)).map fun c => (positions c rs, positions c xs, positions c ys)
            bcasts := (D.filter fun c => decide (c ∉ xs ++ ys)).map (positions · rs) }

theorem rStep_F {xs ys rs D : List Char} {c : Char} (hc : c ≠ 'x') (hD : c ∉ D) :
    (F xs ys rs D).rStep c = F xs ys rs (D ++ [c]) := by
  unfold St.rStep
  simp only [F, findAllS_mask hc hD, contains_mask hc hD]
  by_cases h : c ∈ xs ++ ys
  · have hb : (! decide (c ∈ xs) && ! decide (c ∈ ys)) = false := by
      rcases List.mem_append.1 h with h | h <;> simp [h]
    rw [hb]
    simp only [Bool.false_eq_true, if_false, h, decide_true, not_true_eq_false, decide_false, if_true, List.filter_append,
      List.filter_cons, List.filter_nil, List.append_nil, List.map_append, List.map_cons, List.map_nil]
  · have hn : c ∉ xs ∧ c ∉ ys := by simpa using h
    have hb : (! decide (c ∈ xs) && ! decide (c ∈ ys)) = true := by simp [hn.1, hn.2]
    rw [hb]
    simp only [if_true, h, decide_true, not_false_eq_true, decide_false, Bool.false_eq_true, if_false, List.filter_append,
      List.filter_cons, List.filter_nil, List.append_nil, List.map_append, List.map_cons, List.map_nil, mask_none hn.1, mask_none hn.2]

theorem rLoop_F {xs ys rs : List Char} : ∀ (rest D : List Char) (k : Nat), named rs = D ++ rest →
    rest.length < k → (F xs ys rs D).rLoop k = F xs ys rs (named rs) := by
  intro rest
  induction rest with
  | nil =>
    intro D k e hk
    cases k with
    | zero => omega
    | succ k =>
      rw [List.append_nil] at e
      unfold St.rLoop
      rw [show (F xs ys rs D).rstr = mask D rs from rfl, find_mask D rs, e, Einsum.find_end]
  | cons c rest ih =>
    intro D k e hk
    cases k with
    | zero => omega
    | succ k =>
      have hc : c ∈ named rs := by rw [e]; simp
      have hD : c ∉ D := by
        have := named_nodup rs
        rw [e, List.nodup_append] at this
        exact fun h => this.2.2 c h c (by simp) rfl
      unfold St.rLoop
      rw [show (F xs ys rs D).rstr = mask D rs from rfl, find_mask D rs, Einsum.find_next (named_nodup rs) e]
      dsimp only
      rw [rStep_F (mem_named.1 hc).2 hD]
      exact ih (D ++ [c]) k (by rw [e]; simp) (by simp at hk; omega)

/-- State of the second loop after the letters `E`. -/
def G (xs ys rs E : List Char) : St where
  xstr := mask (named rs ++ E) xs
  ystr := mask (named rs ++ E) ys
  rstr := mask (named rs) rs
  form := { (F xs ys rs (named rs)).form with sums := E.map fun c => (positions c xs, positions c ys) }

theorem xStep_G {xs ys rs E : List Char} {c : Char} (hc : c ≠ 'x') (hD : c ∉ named rs ++ E) :
    (G xs ys rs E).xStep c = G xs ys rs (E ++ [c]) := by
  unfold St.xStep
  simp only [G, findAllS_mask hc hD, List.map_append, List.map_cons, List.map_nil, List.append_assoc]

theorem xLoop_G {xs ys rs : List Char} : ∀ (rest E : List Char) (k : Nat),
    (named xs).filter (fun c => decide (c ∉ named rs)) = E ++ rest → rest.length < k →
    (G xs ys rs E).xLoop k = G xs ys rs ((named xs).filter fun c => decide (c ∉ named rs)) := by
  have hnd : ((named xs).filter fun c => decide (c ∉ named rs)).Nodup := (named_nodup xs).filter _
  intro rest
  induction rest with
  | nil =>
    intro E k e hk
    cases k with
    | zero => omega
    | succ k =>
      rw [List.append_nil] at e
      unfold St.xLoop
      rw [show (G xs ys rs E).xstr = mask (named rs ++ E) xs from rfl, find_mask, Einsum.find_rest, e, Einsum.find_end]
  | cons c rest ih =>
    intro E k e hk
    cases k with
    | zero => omega
    | succ k =>
      have hc : c ∈ (named xs).filter (fun c => decide (c ∉ named rs)) := by rw [e]; simp
      have hE : c ∉ E := by
        have := hnd
        rw [e, List.nodup_append] at this
        exact fun h => this.2.2 c h c (by simp) rfl
      rw [List.mem_filter, decide_eq_true_eq] at hc
      unfold St.xLoop
      rw [show (G xs ys rs E).xstr = mask (named rs ++ E) xs from rfl, find_mask, Einsum.find_rest, Einsum.find_next hnd e]
      dsimp only
      rw [xStep_G (mem_named.1 hc.1).2 (by simp [hc.2, hE])]
      exact ih (E ++ [c]) k (by rw [e]; simp) (by simp at hk; omega)

theorem named_length_le (s : List Char) : (named s).length ≤ s.length :=
  Nat.le_trans (List.length_filter_le _ _) (Einsum.letters_length_le s)

/-- What the two loops leave. -/
theorem analyse_named (xs ys rs : List Char) : analyse xs ys rs =
    { direct := ((named rs).filter fun c => decide (c ∈ xs ++ ys)).map fun c => (positions c rs, positions c xs, positions c ys)
      sums := ((named xs).filter fun c => decide (c ∉ named rs)).map fun c => (positions c xs, positions c ys)
      bcasts := ((named rs).filter fun c => decide (c ∉ xs ++ ys)).map (positions · rs) } := by
  have h0 : (⟨xs, ys, rs, {}⟩ : St) = F xs ys rs [] := by simp [F, mask_nil]
  have h1 : F xs ys rs (named rs) = G xs ys rs [] := by simp [F, G]
  unfold analyse
  rw [h0, rLoop_F (named rs) [] _ rfl (Nat.lt_succ_of_le (named_length_le rs)), h1]
  rw [xLoop_G _ [] _ rfl (Nat.lt_succ_of_le (Nat.le_trans (List.length_filter_le _ _) (named_length_le xs)))]
  rfl

theorem named_eq {s : List Char} (h : 'x' ∉ s) : named s = letters s := by
  unfold named
  rw [List.filter_eq_self]
  intro c hc
  have : c ≠ 'x' := fun e => h (e ▸ mem_letters.1 hc)
  simpa using this

/-- Without the letter `x` the groups are the letters by kind. -/
theorem analyse_eq {xs ys rs : List Char} (hx : 'x' ∉ xs) (hr : 'x' ∉ rs) : analyse xs ys rs =
    { direct := (common rs (xs ++ ys)).map fun c => (positions c rs, positions c xs, positions c ys)
      sums := (onlyIn xs rs).map fun c => (positions c xs, positions c ys)
      bcasts := (onlyIn rs (xs ++ ys)).map (positions · rs) } := by
  rw [analyse_named, named_eq hx, named_eq hr]
  simp only [mem_letters]
  rfl

/-! ### strings ending in the placeholder -/

/-- The string with a placeholder at the end, if the flag is set. -/
def starred (b : Bool) (c : Char) (s : List Char) : List Char := if b then s ++ [c] else s

theorem letters_filter (s : List Char) (a : Char) : (letters s).filter (· ≠ a) = letters (s.filter (· ≠ a)) := by
  induction s with
  | nil => rfl
  | cons c s ih =>
    by_cases h : c = a
    · subst h
      simp only [letters, List.filter_cons, ne_eq, not_true_eq_false, decide_false, Bool.false_eq_true, if_false]
      rw [List.filter_filter, ← ih]
      apply List.filter_congr
      intro d _
      by_cases e : d = c <;> simp [e]
    · simp only [letters, List.filter_cons, ne_eq, h, not_false_eq_true, decide_true, if_true]
      rw [← ih, List.filter_filter, List.filter_filter]
      congr 1
      apply List.filter_congr
      intro d _
      rw [Bool.and_comm]

theorem named_starred {s : List Char} (h : 'x' ∉ s) (b : Bool) : named (starred b 'x' s) = letters s := by
  cases b with
  | false => exact named_eq h
  | true =>
    unfold named starred
    rw [letters_filter]
    congr 1
    rw [if_pos rfl, List.filter_append, List.filter_eq_self.2]
    · simp
    · intro c hc
      have : c ≠ 'x' := fun e => h (e ▸ hc)
      simpa using this

theorem positions_starred {c : Char} (hc : c ≠ 'x') (b : Bool) (s : List Char) : positions c (starred b 'x' s) = positions c s := by
  cases b with
  | false => rfl
  | true =>
    unfold starred
    rw [if_pos rfl, positions_append, positions_eq_nil (s := ['x']).2 (by simpa using hc)]
    simp

theorem mem_starred {c : Char} (hc : c ≠ 'x') (b : Bool) (s : List Char) : c ∈ starred b 'x' s ↔ c ∈ s := by
  cases b <;> simp [starred, hc]

theorem analyse_starred {xs ys rs : List Char} (hx : 'x' ∉ xs) (hr : 'x' ∉ rs) (a b c : Bool) :
    analyse (starred a 'x' xs) (starred b 'x' ys) (starred c 'x' rs) =
    { direct := (common rs (xs ++ ys)).map fun c => (positions c rs, positions c xs, positions c ys)
      sums := (onlyIn xs rs).map fun c => (positions c xs, positions c ys)
      bcasts := (onlyIn rs (xs ++ ys)).map (positions · rs) } := by
  have nx : ∀ d ∈ letters xs, d ≠ 'x' := fun d h e => hx (e ▸ mem_letters.1 h)
  have nr : ∀ d ∈ letters rs, d ≠ 'x' := fun d h e => hr (e ▸ mem_letters.1 h)
  rw [analyse_named, named_starred hx, named_starred hr]
  unfold common onlyIn
  have f1 : ∀ d ∈ letters rs, (d ∈ starred a 'x' xs ++ starred b 'x' ys ↔ d ∈ xs ++ ys) := fun d h => by
    rw [List.mem_append, List.mem_append, mem_starred (nr d h), mem_starred (nr d h)]
  congr 1
  · rw [List.filter_congr (q := fun d => decide (d ∈ xs ++ ys)) fun d h => by rw [decide_eq_decide]; exact f1 d h]
    apply List.map_congr_left
    intro d hd
    have := nr d (List.mem_filter.1 hd).1
    rw [positions_starred this, positions_starred this, positions_starred this]
  · simp only [mem_letters]
    apply List.map_congr_left
    intro d hd
    have := nx d (List.mem_filter.1 hd).1
    rw [positions_starred this, positions_starred this]
  · rw [List.filter_congr (q := fun d => decide (d ∉ xs ++ ys)) fun d h => by rw [decide_eq_decide]; exact not_congr (f1 d h)]
    apply List.map_congr_left
    intro d hd
    have := nr d (List.mem_filter.1 hd).1
    rw [positions_starred this]

/-! ### the parts of the string -/

theorem split3_eq {xs ys rs : List Char} (hx : ',' ∉ xs) (hx' : '>' ∉ xs) (hy : '>' ∉ ys) :
    split3 (xs ++ ',' :: ys ++ '-' :: '>' :: rs) = some (xs, ys, rs) := by
  have h0 : (xs ++ ',' :: ys ++ '-' :: '>' :: rs).findIdx? (· == ',') = some xs.length := by
    rw [List.findIdx?_eq_some_iff_getElem]
    refine ⟨by simp, by simp, ?_⟩
    intro j hj
    have : (xs ++ ',' :: ys ++ '-' :: '>' :: rs)[j]'(by simp; omega) = xs[j] := by
      simp [List.getElem_append_left, hj]
    rw [this]
    have : xs[j] ≠ ',' := fun e => hx (e ▸ List.getElem_mem hj)
    simpa using this
  have h1 : ∀ xs rs : List Char, '>' ∉ xs → Einsum.splitArrow (xs ++ '-' :: '>' :: rs) = some (xs, rs) := by
    intro xs rs h
    induction xs with
    | nil => rfl
    | cons c xs ih =>
      simp only [List.mem_cons, not_or] at h
      rw [List.cons_append]
      unfold Einsum.splitArrow
      split
      · rename_i l e
        simp only [List.cons.injEq] at e
        cases xs with
        | nil => simp at e
        | cons d xs =>
          simp only [List.cons_append, List.cons.injEq] at e
          simp only [List.mem_cons, not_or] at h
          exact absurd e.2.1.symm h.2.1
      · rename_i c' l _ e
        simp only [List.cons.injEq] at e
        obtain ⟨rfl, rfl⟩ := e
        rw [ih h.2]
        rfl
      · rename_i e
        simp at e
  unfold split3
  rw [h0, h1 _ _ (by simp [hx', hy])]
  dsimp only
  rw [if_neg (by simp)]
  congr 2
  · simp
  · congr 1
    rw [show (xs ++ ',' :: ys).length - xs.length - 1 = ys.length by simp]
    rw [show xs ++ ',' :: ys ++ '-' :: '>' :: rs = (xs ++ [',']) ++ (ys ++ '-' :: '>' :: rs) by simp,
      show xs.length + 1 = (xs ++ [',']).length by simp, List.drop_left, List.take_left]

theorem isConj_starred {s : List Char} (h : '*' ∉ s) (b : Bool) (hne : starred b '*' s ≠ []) :
    isConj (starred b '*' s) = .ok (b, starred b 'x' s) := by
  cases b with
  | false =>
    have hne : s ≠ [] := hne
    unfold isConj
    rw [show starred false '*' s = s from rfl, List.getLast?_eq_some_getLast hne]
    dsimp only
    rw [if_neg]
    · rfl
    · exact fun e => h (e ▸ List.getLast_mem hne)
  | true =>
    unfold isConj
    rw [show starred true '*' s = s ++ ['*'] from rfl, List.getLast?_concat]
    simp [starred]

end EinsumFn
end Cnine
