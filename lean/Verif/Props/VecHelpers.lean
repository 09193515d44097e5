import Verif.Model.VecHelpers
import Verif.Lemmas.RtensorA

/-! # Properties of the vector helpers (include/Cnine_base_helpers.hpp) -/

namespace Cnine.VH

variable {α β γ : Type _}

/-! ### C651: rearranging a vector -/

/-- The positions are those of a vector of length `n`. -/
def InRange (n : Nat) (pi : List Int) : Prop := ∀ p, p ∈ pi → 0 ≤ p ∧ p < n

theorem get_lt {l : List α} {i : Nat} (h : i < l.length) : Res.get l i = .ok l[i] := by
  unfold Res.get; rw [List.getElem?_eq_getElem h]

theorem get_out {l : List α} {i : Nat} (h : l.length ≤ i) : Res.get l i = .ub := by
  unfold Res.get; rw [List.getElem?_eq_none h]

theorem pick_ok (x : List Int) : ∀ pi, InRange x.length pi →
    ∃ r, pick x pi = .ok r ∧ r.length = pi.length ∧ ∀ (i : Nat) (p : Int), pi[i]? = some p → r[i]? = x[p.toNat]?
  | [], _ => ⟨[], rfl, rfl, by simp⟩
  | p :: pi, h => by
    obtain ⟨r, e, l, c⟩ := pick_ok x pi fun q hq => h q (List.mem_cons_of_mem _ hq)
    obtain ⟨h0, h1⟩ := h p List.mem_cons_self
    have h2 : p.toNat < x.length := by omega
    refine ⟨x[p.toNat] :: r, ?_, by simp [l], ?_⟩
    · unfold pick
      rw [if_neg (by omega), get_lt h2, Res.ok_bind, e]
      rfl
    · intro i q hq
      cases i with
      | zero =>
        simp only [List.getElem?_cons_zero, Option.some.injEq] at hq ⊢
        subst hq
        exact (List.getElem?_eq_getElem h2).symm
      | succ i => exact c i q (by simpa using hq)

/-- C651: entry `i` of the result is entry `pi[i]` of `x`. -/
theorem C651_entries {x pi : List Int} (hl : x.length = pi.length) (h : InRange x.length pi) :
    ∃ r, permute x pi = .ok r ∧ r.length = x.length ∧ ∀ (i : Nat) (p : Int), pi[i]? = some p → r[i]? = x[p.toNat]? := by
  obtain ⟨r, e, l, c⟩ := pick_ok x pi h
  refine ⟨r, ?_, by omega, c⟩
  unfold permute
  rw [decide_eq_true hl]
  exact e

/-- C651: vectors of different lengths are refused. -/
theorem C651_refuses {x pi : List Int} (hl : x.length ≠ pi.length) : permute x pi = .throw := by
  unfold permute; rw [decide_eq_false hl]; rfl

theorem pick_out (x : List Int) : ∀ pi, ¬ InRange x.length pi → pick x pi = .ub
  | [], h => absurd (fun _ hp => by simp at hp) h
  | p :: pi, h => by
    unfold pick
    by_cases hp : 0 ≤ p ∧ p < x.length
    · have h2 : p.toNat < x.length := by omega
      rw [if_neg (by omega), get_lt h2, Res.ok_bind, pick_out x pi fun hq => h fun q hm => by
        rcases List.mem_cons.mp hm with rfl | hm
        · exact hp
        · exact hq q hm]
      rfl
    · by_cases h0 : p < 0
      · rw [if_pos h0]; rfl
      · rw [if_neg h0, get_out (by omega)]; rfl

/-- C651: nothing checks the positions; one outside is undefined. -/
theorem C651_outside_fails {x pi : List Int} (hl : x.length = pi.length) (h : ¬ InRange x.length pi) : permute x pi = .ub := by
  unfold permute
  rw [decide_eq_true hl]
  exact pick_out x pi h

/-- C651: rearranging twice is rearranging once by the rearranged positions. -/
theorem C651_twice {x pi si : List Int} (hl : x.length = pi.length) (hs : pi.length = si.length) (h : InRange x.length pi)
    (h' : InRange x.length si) :
    ∃ y ri r, permute x pi = .ok y ∧ permute pi si = .ok ri ∧ permute y si = .ok r ∧ permute x ri = .ok r := by
  obtain ⟨y, e1, l1, c1⟩ := C651_entries hl h
  obtain ⟨ri, e2, l2, c2⟩ := C651_entries hs (hl ▸ h')
  obtain ⟨r, e3, l3, c3⟩ := C651_entries (x := y) (pi := si) (by omega) (l1.symm ▸ h')
  have at2 : ∀ i (_ : i < ri.length), ∃ s : Int, si[i]? = some s ∧ 0 ≤ s ∧ s.toNat < pi.length ∧ ri[i]? = pi[s.toNat]? := by
    intro i hi
    have hi' : i < si.length := by omega
    have e := List.getElem?_eq_getElem hi'
    have hm := h' _ (List.getElem_mem hi')
    exact ⟨si[i], e, hm.1, by omega, c2 i _ e⟩
  have hri : InRange x.length ri := by
    intro p hp
    obtain ⟨i, hi, rfl⟩ := List.getElem_of_mem hp
    obtain ⟨s, _, _, b, c⟩ := at2 i hi
    rw [List.getElem?_eq_getElem hi, List.getElem?_eq_getElem b] at c
    injection c with c
    rw [c]
    exact h _ (List.getElem_mem b)
  obtain ⟨r', e4, l4, c4⟩ := C651_entries (x := x) (pi := ri) (by omega) hri
  refine ⟨y, ri, r, e1, e2, e3, ?_⟩
  rw [e4]
  congr 1
  refine List.ext_getElem? fun i => ?_
  by_cases hi : i < ri.length
  · obtain ⟨s, a, _, b, c⟩ := at2 i hi
    have hp := List.getElem?_eq_getElem b
    rw [c3 i s a, c4 i _ (c.trans hp), c1 _ _ hp]
  · rw [List.getElem?_eq_none (by omega), List.getElem?_eq_none (by omega)]

example : permute [10, 20, 30] [2, 0, 1] = .ok [30, 10, 20] := rfl
example : ∃ y ri r, permute [10, 20, 30] [2, 0, 1] = .ok y ∧ permute [2, 0, 1] [1, 1, 0] = .ok ri ∧ permute y [1, 1, 0] = .ok r ∧
    permute [10, 20, 30] ri = .ok r :=
  C651_twice rfl rfl (by unfold InRange; decide) (by unfold InRange; decide)
example : permute [10, 20] [0, 2] = .ub := C651_outside_fails rfl (by unfold InRange; decide)

/-! ### C652: mapping -/

theorem foldl_snoc (f : α → β) : ∀ (v : List α) (R : List β), v.foldl (fun R p => R ++ [f p]) R = R ++ v.map f
  | [], R => by simp
  | a :: v, R => by rw [List.foldl_cons, foldl_snoc f v]; simp

/-- C652: one vector: the values in order. -/
theorem C652_one (v : List α) (f : α → β) : mapcar v f = v.map f := by
  unfold mapcar; rw [foldl_snoc]; simp

/-- C652: two vectors of one length: entry `i` is the value at the two entries `i`. -/
theorem C652_two (x : List α) (y : List β) (f : α → β → γ) (h : x.length = y.length) :
    ∃ r, mapcar2 x y f = .ok r ∧ r.length = x.length ∧ ∀ (i : Nat) (a : α) (b : β), x[i]? = some a → y[i]? = some b → r[i]? = some (f a b) := by
  have key : ∀ n, n ≤ x.length → (loop n ([] : List γ) fun i R => (do
      let a ← Res.get x i
      let b ← Res.get y i
      .ok (R ++ [f a b]) : Res (List γ))) = .ok ((x.take n).zipWith f (y.take n)) := by
    intro n
    induction n with
    | zero => intro _; rfl
    | succ n ih =>
      intro hn
      have hx : n < x.length := by omega
      have hy : n < y.length := by omega
      rw [RA.loop_snoc, ih (by omega), Res.ok_bind, get_lt hx, Res.ok_bind, get_lt hy, Res.ok_bind,
        List.take_succ_eq_append_getElem hx, List.take_succ_eq_append_getElem hy, List.zipWith_append (by simp; omega)]
      rfl
  refine ⟨x.zipWith f y, ?_, by simp [h], ?_⟩
  · unfold mapcar2
    rw [decide_eq_true h]
    show loop x.length [] _ = _
    rw [key x.length (Nat.le_refl _), List.take_length, h, List.take_length]
  · intro i a b ha hb
    rw [List.getElem?_zipWith, ha, hb]

/-- C652: vectors of different lengths are refused. -/
theorem C652_refuses (x : List α) (y : List β) (f : α → β → γ) (h : x.length ≠ y.length) : mapcar2 x y f = .throw := by
  unfold mapcar2; rw [decide_eq_false h]; rfl

example : mapcar [1, 2, 3] (· * 2) = [2, 4, 6] := rfl
example : mapcar2 [1, 2] [10, 20] (· + ·) = .ok [11, 22] := rfl
example : mapcar2 [1, 2] [10] (· + ·) = .throw := C652_refuses [1, 2] [10] _ (by decide)

/-! ### C653: indentation -/

/-- C653: however blocks are nested and whether or not an exception goes out, the indentation is the former one afterwards. -/
theorem C653_restored : ∀ (c : Code) (b : String), (c.run b).2.1 = b
  | .line _, _ => rfl
  | .fail, _ => rfl
  | .block _ _, _ => rfl
  | .seq c d, b => by
    unfold Code.run
    by_cases h : (c.run b).2.2 = true
    · simp only [h, if_true]; exact C653_restored c b
    · simp only [h, if_false]
      rw [C653_restored c b]; exact C653_restored d b

/-- C653: the lines are those without indentation, each behind the former indentation. -/
theorem C653_lines : ∀ (c : Code) (b a : String), (c.run (a ++ b)).1 = ((c.run b).1.map (a ++ ·)) ∧ (c.run (a ++ b)).2.2 = (c.run b).2.2
  | .line s, b, a => by simp [Code.run, String.append_assoc]
  | .fail, _, _ => ⟨rfl, rfl⟩
  | .block s c, b, a => by
    obtain ⟨h1, h2⟩ := C653_lines c (b ++ s) a
    unfold Code.run
    simp only [String.append_assoc]
    exact ⟨h1, h2⟩
  | .seq c d, b, a => by
    obtain ⟨h1, h2⟩ := C653_lines c b a
    obtain ⟨g1, g2⟩ := C653_lines d b a
    unfold Code.run
    by_cases h : (c.run b).2.2 = true
    · simp only [h2, h, if_true]; exact ⟨h1, trivial⟩
    · simp only [h2, h]
      rw [C653_restored c b, C653_restored c (a ++ b)]
      refine ⟨?_, g2⟩
      show (c.run (a ++ b)).1 ++ (d.run (a ++ b)).1 = ((c.run b).1 ++ (d.run b).1).map (a ++ ·)
      rw [h1, g1, List.map_append]

/-- C653: the lines of a block are those of its code, each behind the two indentations, one after the other. -/
theorem C653_block (s b : String) (c : Code) :
    ((Code.block s c).run b).1 = (c.run "").1.map (b ++ s ++ ·) ∧ ((Code.block s c).run b).2.2 = (c.run "").2.2 := by
  have h := C653_lines c "" (b ++ s)
  rw [String.append_empty] at h
  exact h

/-- C653: after code that does not fail the next code writes its lines behind the same indentation; after code that fails nothing is written. -/
theorem C653_seq (c d : Code) (b : String) :
    ((Code.seq c d).run b).1 = (c.run b).1 ++ (if (c.run b).2.2 then [] else (d.run b).1) ∧
      ((Code.seq c d).run b).2.2 = ((c.run b).2.2 || (d.run b).2.2) := by
  have e : (Code.seq c d).run b = if (c.run b).2.2 then c.run b else ((c.run b).1 ++ (d.run (c.run b).2.1).1, (d.run (c.run b).2.1).2) := by
    rw [Code.run]
  rw [e, C653_restored c b]
  cases h : (c.run b).2.2
  · exact ⟨rfl, rfl⟩
  · exact ⟨(List.append_nil _).symm, h⟩

example : (Code.seq (.block "  " (.seq (.line "x") (.block "- " (.line "y")))) (.line "z")).run "> " = ([">   x", ">   - y", "> z"], "> ", false) := by
  decide +kernel
example : (Code.seq (.block "  " (.seq (.line "x") .fail)) (.line "z")).run "> " = ([">   x"], "> ", true) := by decide +kernel

end Cnine.VH
