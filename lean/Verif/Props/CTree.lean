import Verif.Lemmas.CTreeForm
import Verif.Lemmas.CTree
import Mathlib.Algebra.BigOperators.Group.List.Basic

/-!
# The newer einsum strings and contraction trees (C243-C252)

Strings are described by `Words`: the tokens of a string are its characters, or what stands between `(` and the next `)`.
-/

namespace Cnine
namespace CT

open Einsum (sumOver upd DepOn)

/-- The first arrow of a string. -/
def First (s l r : List Char) : Prop := s = l ++ '-' :: '>' :: r ∧ ∀ a b, s = a ++ '-' :: '>' :: b → l.length ≤ a.length

/-- The parts of a string between its commas. -/
inductive Split : List Char → List (List Char) → Prop
  | one (s : List Char) (h : ',' ∉ s) : Split s [s]
  | cons (w s : List Char) (l : List (List Char)) (h : ',' ∉ w) (hs : Split s l) : Split (w ++ ',' :: s) (w :: l)

/-- The operands that the code sees: an empty one at the end is not seen. -/
def seen (l : List (List Char)) : List (List Char) := if l.getLast? = some [] then l.dropLast else l

/-- The tokens of the result and of the operands. -/
def Reading (s : List Char) (W : List (List Tok)) : Prop :=
  ∃ lhs rhs ps, First s lhs rhs ∧ Split lhs ps ∧ List.Forall₂ Words (rhs :: seen ps) W

theorem arrow_some : ∀ (s l r : List Char), arrow s = some (l, r) → First s l r
  | [], l, r, h => by simp [arrow] at h
  | [c], l, r, h => by simp [arrow] at h
  | c :: d :: s, l, r, h => by
    by_cases e : c = '-' ∧ d = '>'
    · obtain ⟨rfl, rfl⟩ := e
      simp only [arrow, Option.some.injEq, Prod.mk.injEq] at h
      obtain ⟨rfl, rfl⟩ := h
      exact ⟨rfl, fun a b _ => Nat.zero_le _⟩
    · have he : arrow (c :: d :: s) = (arrow (d :: s)).map fun p => (c :: p.1, p.2) := by
        rw [arrow]
        rintro s' rfl h'
        exact e ⟨rfl, (List.cons.inj h').1⟩
      rw [he] at h
      obtain ⟨⟨l', r'⟩, h1, h2⟩ := Option.map_eq_some_iff.1 h
      cases h2
      obtain ⟨g1, g2⟩ := arrow_some (d :: s) l' r' h1
      refine ⟨by rw [g1]; rfl, ?_⟩
      intro a b hab
      cases a with
      | nil =>
        simp only [List.nil_append, List.cons.injEq] at hab
        exact absurd ⟨hab.1, hab.2.1⟩ e
      | cons x a =>
        have := g2 a b (List.cons.inj hab).2
        simpa using this

theorem arrow_none : ∀ (s : List Char), arrow s = none → ∀ a b, s ≠ a ++ '-' :: '>' :: b
  | [], _, a, b => by cases a <;> simp
  | [c], _, a, b => by rcases a with _ | ⟨x, a⟩ <;> simp
  | c :: d :: s, h, a, b => by
    intro hab
    by_cases e : c = '-' ∧ d = '>'
    · obtain ⟨rfl, rfl⟩ := e
      simp [arrow] at h
    · have he : arrow (c :: d :: s) = (arrow (d :: s)).map fun p => (c :: p.1, p.2) := by
        rw [arrow]
        rintro s' rfl h'
        exact e ⟨rfl, (List.cons.inj h').1⟩
      rw [he, Option.map_eq_none_iff] at h
      cases a with
      | nil =>
        simp only [List.nil_append, List.cons.injEq] at hab
        exact e ⟨hab.1, hab.2.1⟩
      | cons x a => exact arrow_none (d :: s) h a b (List.cons.inj hab).2

theorem First.unique {s l r l' r' : List Char} (h : First s l r) (h' : First s l' r') : l = l' ∧ r = r' := by
  have e : l.length = l'.length := Nat.le_antisymm (h.2 l' r' h'.1) (h'.2 l r h.1)
  have := h.1.symm.trans h'.1
  have := List.append_inj this e
  exact ⟨this.1, by simpa using this.2⟩

theorem split_comma {s : List Char} (h : ',' ∈ s) :
    s = s.takeWhile (· ≠ ',') ++ ',' :: (s.dropWhile (· ≠ ',')).drop 1 ∧ ',' ∉ s.takeWhile (· ≠ ',') := by
  induction s with
  | nil => cases h
  | cons c s ih =>
    by_cases e : c = ','
    · subst e; simp
    · have := ih (by simpa [Ne.symm e] using h)
      simp only [List.takeWhile_cons, List.dropWhile_cons, ne_eq, e, not_false_eq_true, decide_true, if_true, List.cons_append,
        List.mem_cons, not_or]
      exact ⟨by rw [← this.1], Ne.symm e, this.2⟩

theorem Split.ne_nil {s : List Char} {l : List (List Char)} (h : Split s l) : l ≠ [] := by cases h <;> simp

theorem cut_comma {w s w' s' : List Char} (h : ',' ∉ w) (h' : ',' ∉ w') (e : w ++ ',' :: s = w' ++ ',' :: s') : w = w' ∧ s = s' := by
  induction w generalizing w' with
  | nil =>
    cases w' with
    | nil => exact ⟨rfl, by simpa using e⟩
    | cons c w' => simp only [List.nil_append, List.cons_append, List.cons.injEq] at e; exact absurd (e.1 ▸ List.mem_cons_self) h'
  | cons c w ih =>
    cases w' with
    | nil => simp only [List.nil_append, List.cons_append, List.cons.injEq] at e; exact absurd (e.1 ▸ List.mem_cons_self) h
    | cons c' w' =>
      simp only [List.cons_append, List.cons.injEq] at e
      simp only [List.mem_cons, not_or] at h h'
      obtain ⟨h1, h2⟩ := ih h.2 h'.2 e.2
      exact ⟨by rw [e.1, h1], h2⟩

theorem Split.unique {s : List Char} {l l' : List (List Char)} (h : Split s l) (h' : Split s l') : l = l' := by
  induction h generalizing l' with
  | one s hs =>
    cases h' with
    | one => rfl
    | cons w s' l hw _ => exact absurd (by simp) hs
  | cons w s l hw hs ih =>
    generalize hq : w ++ ',' :: s = q at h'
    cases h' with
    | one _ hn => exact absurd (by rw [← hq]; simp) hn
    | cons w' s' l' hw' hs' =>
      obtain ⟨e1, e2⟩ := cut_comma hw hw' hq
      subst e1 e2
      rw [ih hs']

theorem pieces_split : ∀ (k : Nat) (s : List Char), s.length ≤ k → ∃ ps, Split s ps ∧ pieces k s = seen ps
  | 0, s, h => by
    have : s = [] := List.length_eq_zero_iff.1 (by omega)
    subst this
    exact ⟨[[]], .one [] (by simp), rfl⟩
  | k + 1, [], _ => ⟨[[]], .one [] (by simp), rfl⟩
  | k + 1, c :: s, h => by
    by_cases hc : ',' ∈ c :: s
    · obtain ⟨e, hn⟩ := split_comma hc
      rw [pieces]
      generalize (c :: s).takeWhile (· ≠ ',') = w at e hn ⊢
      generalize ((c :: s).dropWhile (· ≠ ',')).drop 1 = s' at e hn ⊢
      obtain ⟨ps, h1, h2⟩ := pieces_split k s' (by
        have := congrArg List.length e
        simp at this h
        omega)
      rw [e]
      refine ⟨w :: ps, .cons w s' ps hn h1, ?_⟩
      rw [h2]
      obtain ⟨x, ps, rfl⟩ := List.exists_cons_of_ne_nil h1.ne_nil
      simp only [seen, List.getLast?_cons_cons, List.dropLast_cons_cons]
      split <;> rfl
      simp
    · refine ⟨[c :: s], .one _ hc, ?_⟩
      have htd : ∀ l : List Char, ',' ∉ l → l.takeWhile (· ≠ ',') = l ∧ l.dropWhile (· ≠ ',') = [] := by
        intro l
        induction l with
        | nil => simp
        | cons x l ih =>
          intro hl
          simp only [List.mem_cons, not_or] at hl
          have hx : x ≠ ',' := Ne.symm hl.1
          obtain ⟨i1, i2⟩ := ih hl.2
          simp only [List.takeWhile_cons, List.dropWhile_cons, ne_eq, hx, not_false_eq_true, decide_true, if_true]
          exact ⟨by rw [i1], i2⟩
      obtain ⟨ht, hd⟩ := htd _ hc
      rw [pieces, ht, hd]
      · cases k <;> simp [pieces, seen]
      · simp

theorem forall₂_unique {l : List (List Char)} {W W' : List (List Tok)} (h : List.Forall₂ Words l W) (h' : List.Forall₂ Words l W') : W = W' := by
  induction h generalizing W' with
  | nil => cases h'; rfl
  | cons hab _ ih =>
    cases h' with
    | cons h1 h2 => rw [hab.unique h1, ih h2]

theorem Reading.unique {s : List Char} {W W' : List (List Tok)} (h : Reading s W) (h' : Reading s W') : W = W' := by
  obtain ⟨l, r, ps, h1, h2, h3⟩ := h
  obtain ⟨l', r', ps', h1', h2', h3'⟩ := h'
  obtain ⟨rfl, rfl⟩ := h1.unique h1'
  have := h2.unique h2'
  subst this
  exact forall₂_unique h3 h3'

/-- The two ways in which a string can be refused. -/
def Bad (W : List (List Tok)) : Prop :=
  ∃ t ∈ W.headD [], isC t ∧ 2 ≤ W.countP (fun ws => decide (t ∈ ws)) ∧ W.countP (fun ws => decide (t ∈ ws)) ≠ 3

theorem form_cases (s : List Char) :
    (form s = .throw ∧ ∀ W, ¬ Reading s W) ∨ ∃ W, Reading s W ∧ ((form s = .throw ∧ Bad W) ∨ ∃ f, form s = .ok f ∧ Good f W) := by
  rcases form_spec s with ⟨h1, h2⟩ | ⟨lhs, rhs, ha, h⟩
  · left
    refine ⟨h2, ?_⟩
    rintro W ⟨l, r, ps, hf, _⟩
    exact arrow_none s h1 l r hf.1
  · have hf := arrow_some s lhs rhs ha
    obtain ⟨ps, hs, hp⟩ := pieces_split lhs.length lhs le_rfl
    rw [hp] at h
    rcases h with ⟨h1, str, hm, hw⟩ | ⟨W, hW, h⟩
    · left
      refine ⟨h1, ?_⟩
      rintro W ⟨l, r, ps', hf', hs', hW⟩
      obtain ⟨rfl, rfl⟩ := hf.unique hf'
      have := hs.unique hs'
      subst this
      have : ∃ ws, Words str ws := by
        clear h1 hs hs' hp
        generalize rhs :: seen ps = l at hm hW
        induction hW with
        | nil => cases hm
        | cons hab _ ih =>
          rcases List.mem_cons.1 hm with rfl | hm
          · exact ⟨_, hab⟩
          · exact ih hm
      obtain ⟨ws, h⟩ := this
      exact hw ws h
    · exact Or.inr ⟨W, ⟨lhs, rhs, ps, hf, hs, hW⟩, h⟩

theorem good_of {s : List Char} {f : Form} {W : List (List Tok)} (hf : form s = .ok f) (hW : Reading s W) : Good f W := by
  rcases form_cases s with ⟨h1, _⟩ | ⟨W', h1, ⟨h2, _⟩ | ⟨g, h2, h3⟩⟩
  · rw [hf] at h1; cases h1
  · rw [hf] at h2; cases h2
  · rw [hf] at h2
    cases h2
    rw [hW.unique h1]; exact h3

theorem reading_of {s : List Char} {f : Form} (hf : form s = .ok f) : ∃ W, Reading s W ∧ Good f W := by
  rcases form_cases s with ⟨h1, _⟩ | ⟨W', h1, ⟨h2, _⟩ | ⟨g, h2, h3⟩⟩
  · rw [hf] at h1; cases h1
  · rw [hf] at h2; cases h2
  · rw [hf] at h2
    cases h2
    exact ⟨W', h1, h3⟩

/-! ## C243: the string can be recovered -/

/-- **C243.** Every string that is accepted is one arrow with readable strings around it, and the form determines them: unpacking the
tuple of an operand and looking the numbers up gives the tokens of its string in order.  Numbers stand for different tokens, and a tuple
has each number once. -/
theorem C243_reads {s : List Char} {f : Form} (hf : form s = .ok f) :
    ∃ W, Reading s W ∧ f.args.length = W.length ∧ f.places.length = W.length ∧ f.tokens.Nodup ∧
      (∀ t, t ∈ f.tokens ↔ ∃ ws ∈ W, t ∈ ws) ∧
      ∀ (j : Nat) (ws : List Tok), W[j]? = some ws → ∃ (a : List Nat) (m : List (List Nat)) (u : List Nat), f.args[j]? = some a ∧
        f.places[j]? = some m ∧ a.Nodup ∧ unpack a m = .ok u ∧ u.map (fun id => f.tokens[id]?) = ws.map some := by
  obtain ⟨W, hW, hg⟩ := reading_of hf
  refine ⟨W, hW, hg.lenA, hg.lenP, hg.tokens, hg.named, fun j ws hj => ?_⟩
  have hlt := (List.getElem?_eq_some_iff.1 hj).1
  have ha := List.getElem?_eq_getElem (show j < f.args.length by rw [hg.lenA]; exact hlt)
  have hm := List.getElem?_eq_getElem (show j < f.places.length by rw [hg.lenP]; exact hlt)
  have hs := hg.shows_ j _ _ ws ha hm hj
  obtain ⟨u, h1, h2, h3⟩ := unpack_ok hg.tokens hs
  refine ⟨_, _, u, ha, hm, hs.nodup, h1, ?_⟩
  apply List.ext_getElem? 
  intro q
  rw [List.getElem?_map, List.getElem?_map]
  cases hq : ws[q]? with
  | none =>
    rw [List.getElem?_eq_none_iff] at hq
    rw [List.getElem?_eq_none (by omega)]; rfl
  | some t =>
    obtain ⟨id, e1, e2⟩ := h3 q t hq
    rw [e1, Option.map_some, e2]; rfl

/-- What a string means is unique. -/
theorem C243_unique {s : List Char} {W W' : List (List Tok)} (h : Reading s W) (h' : Reading s W') : W = W' := h.unique h'

/-- **C243.** Reading never goes wrong silently: it throws when there is no arrow or a bracket is not closed or a convolution token does
not occur three times, and otherwise it succeeds. -/
theorem C243_refused (s : List Char) :
    form s ≠ .ub ∧ (form s = .throw ↔ ∀ W, Reading s W → Bad W) := by
  rcases form_cases s with ⟨h1, h2⟩ | ⟨W', h1, ⟨h2, h3⟩ | ⟨g, h2, h3⟩⟩
  · exact ⟨by rw [h1]; simp, fun _ W hW => absurd hW (h2 W), fun _ => h1⟩
  · refine ⟨by rw [h2]; simp, fun _ W hW => ?_, fun _ => h2⟩
    rw [hW.unique h1]; exact h3
  · refine ⟨by rw [h2]; simp, fun h => ?_, fun h => ?_⟩
    · rw [h2] at h; cases h
    · exfalso
      obtain ⟨t, b1, b2, b3, b4⟩ := h W' h1
      have hmem : t ∈ g.tokens := by
        rw [h3.named]
        cases W' with
        | nil => cases b1
        | cons w W => exact ⟨w, by simp, b1⟩
      obtain ⟨i, hi⟩ := List.mem_iff_getElem?.1 hmem
      obtain ⟨o1, o2, _⟩ := occ_words h3.tokens h3.lenA h3.lenP h3.shows_ hi
      have hx : pX g.args g.tokens i := ⟨by rw [o1]; exact b3, o2.2 b1, by rw [List.getD_eq_getElem?_getD, hi]; exact b2⟩
      have := h3.three i (List.getElem?_eq_some_iff.1 hi).1 hx
      omega

example : ∃ f, form "i(bc)i,(bc)k->ik".toList = .ok f ∧ f.tokens = ["i".toList, "k".toList, "bc".toList] ∧
    f.args = [[0, 1], [2, 0], [2, 1]] ∧ f.places = [[[0], [1]], [[1], [0, 2]], [[0], [1]]] ∧
    unpack [2, 0] [[1], [0, 2]] = .ok [0, 2, 0] := ⟨_, rfl, rfl, rfl, rfl, rfl⟩

example : form "i(bj->i".toList = .throw ∧ form "ij".toList = .throw ∧ form "(c1)->(c1)".toList = .throw := ⟨rfl, rfl, rfl⟩

/-! ## C244: what each token is used for -/

theorem getElem?_idxOf {a : List Nat} (h : a.Nodup) {p i : Nat} : a[p]? = some i ↔ i ∈ a ∧ p = a.idxOf i := by
  constructor
  · intro e
    have hm := List.mem_of_getElem? e
    refine ⟨hm, ?_⟩
    exact nodup_getElem? h e (by rw [List.getElem?_eq_getElem (List.idxOf_lt_length_iff.2 hm), List.getElem_idxOf])
  · rintro ⟨hm, rfl⟩
    rw [List.getElem?_eq_getElem (List.idxOf_lt_length_iff.2 hm), List.getElem_idxOf]

theorem Good.nodupA {f : Form} {W : List (List Tok)} (h : Good f W) {j : Nat} {a : List Nat} (ha : f.args[j]? = some a) : a.Nodup := by
  have hlt := (List.getElem?_eq_some_iff.1 ha).1
  have hm := List.getElem?_eq_getElem (show j < f.places.length by rw [h.lenP, ← h.lenA]; exact hlt)
  have hw := List.getElem?_eq_getElem (show j < W.length by rw [← h.lenA]; exact hlt)
  exact (h.shows_ j a _ _ ha hm hw).nodup

/-- **C244.** The contractions are the tokens that are in several operands and not in the result. -/
theorem C244_contraction {s : List Char} {f : Form} {W : List (List Tok)} (hf : form s = .ok f) (hW : Reading s W) :
    f.contraction.Pairwise (· < ·) ∧ ∀ i, i ∈ f.contraction ↔
      ∃ t, f.tokens[i]? = some t ∧ t ∉ W.headD [] ∧ 2 ≤ W.countP (fun ws => decide (t ∈ ws)) := by
  have h := good_of hf hW
  refine ⟨by rw [h.contraction]; exact List.Pairwise.filter _ List.pairwise_lt_range, fun i => ?_⟩
  rw [h.contraction, List.mem_filter, List.mem_range, decide_eq_true_eq]
  constructor
  · rintro ⟨hi, h1, h2⟩
    have ht := List.getElem?_eq_getElem hi
    obtain ⟨o1, o2, _⟩ := occ_words h.tokens h.lenA h.lenP h.shows_ ht
    exact ⟨_, ht, fun h => h2 (o2.2 h), by rw [← o1]; exact h1⟩
  · rintro ⟨t, ht, h1, h2⟩
    obtain ⟨o1, o2, _⟩ := occ_words h.tokens h.lenA h.lenP h.shows_ ht
    exact ⟨(List.getElem?_eq_some_iff.1 ht).1, by rw [o1]; exact h2, fun h => h1 (o2.1 h)⟩

/-- **C244.** The convolutions are the two-letter tokens starting with `c` that are in the result and in an operand; they are in two
operands then. -/
theorem C244_convolution {s : List Char} {f : Form} {W : List (List Tok)} (hf : form s = .ok f) (hW : Reading s W) :
    f.convolution.Pairwise (· < ·) ∧ ∀ i, i ∈ f.convolution ↔
      ∃ t, f.tokens[i]? = some t ∧ t ∈ W.headD [] ∧ isC t ∧ W.countP (fun ws => decide (t ∈ ws)) = 3 := by
  have h := good_of hf hW
  refine ⟨by rw [h.convolution]; exact List.Pairwise.filter _ List.pairwise_lt_range, fun i => ?_⟩
  rw [h.convolution, List.mem_filter, List.mem_range, decide_eq_true_eq]
  have hget : ∀ {t}, f.tokens[i]? = some t → f.tokens.getD i [] = t := fun ht => by rw [List.getD_eq_getElem?_getD, ht]; rfl
  constructor
  · rintro ⟨hi, hx⟩
    have ht := List.getElem?_eq_getElem hi
    obtain ⟨o1, o2, _⟩ := occ_words h.tokens h.lenA h.lenP h.shows_ ht
    have h3 := h.three i hi hx
    obtain ⟨_, h2, h4⟩ := hx
    rw [hget ht] at h4
    exact ⟨_, ht, o2.1 h2, h4, by rw [← o1]; exact h3⟩
  · rintro ⟨t, ht, h1, h2, h3⟩
    obtain ⟨o1, o2, _⟩ := occ_words h.tokens h.lenA h.lenP h.shows_ ht
    exact ⟨(List.getElem?_eq_some_iff.1 ht).1, by omega, o2.2 h1, by rw [hget ht]; exact h2⟩

/-- **C244.** The transfers are, in the order of the numbers, the other tokens in the result and an operand; each entry lists where
the token is. -/
theorem C244_transfers {s : List Char} {f : Form} {W : List (List Tok)} (hf : form s = .ok f) (hW : Reading s W) :
    ∃ L : List Nat, L.Pairwise (· < ·) ∧ (∀ i, i ∈ L ↔ ∃ t, f.tokens[i]? = some t ∧ t ∈ W.headD [] ∧ ¬ isC t ∧
        2 ≤ W.countP (fun ws => decide (t ∈ ws))) ∧
      List.Forall₂ (fun i v => v.Pairwise (fun x y => x.1 < y.1) ∧
        ∀ j q, (j, q) ∈ v ↔ ∃ a, f.args[j]? = some a ∧ a[q]? = some i) L f.transfers := by
  have h := good_of hf hW
  refine ⟨(List.range f.tokens.length).filter fun i => decide (pT f.args f.tokens i), List.Pairwise.filter _ List.pairwise_lt_range, ?_, ?_⟩
  · intro i
    rw [List.mem_filter, List.mem_range, decide_eq_true_eq]
    have hget : ∀ {t}, f.tokens[i]? = some t → f.tokens.getD i [] = t := fun ht => by rw [List.getD_eq_getElem?_getD, ht]; rfl
    constructor
    · rintro ⟨hi, h1, h2, h3⟩
      have ht := List.getElem?_eq_getElem hi
      obtain ⟨o1, o2, _⟩ := occ_words h.tokens h.lenA h.lenP h.shows_ ht
      rw [hget ht] at h3
      exact ⟨_, ht, o2.1 h2, h3, by rw [← o1]; exact h1⟩
    · rintro ⟨t, ht, h1, h2, h3⟩
      obtain ⟨o1, o2, _⟩ := occ_words h.tokens h.lenA h.lenP h.shows_ ht
      exact ⟨(List.getElem?_eq_some_iff.1 ht).1, by rw [o1]; exact h3, o2.2 h1, by rw [hget ht]; exact h2⟩
  · rw [h.transfers, List.forall₂_map_right_iff, List.forall₂_same]
    intro i _
    refine ⟨?_, ?_⟩
    · rw [List.pairwise_map]
      exact occ_sorted f.args i
    · intro j q
      rw [List.mem_map]
      constructor
      · rintro ⟨k, hk, e⟩
        cases e
        obtain ⟨a, ha, hi⟩ := mem_occ.1 hk
        refine ⟨a, ha, ?_⟩
        rw [List.getD_eq_getElem?_getD, ha]
        exact (getElem?_idxOf (h.nodupA ha)).2 ⟨hi, rfl⟩
      · rintro ⟨a, ha, e⟩
        obtain ⟨hi, rfl⟩ := (getElem?_idxOf (h.nodupA ha)).1 e
        refine ⟨j, mem_occ.2 ⟨a, ha, hi⟩, ?_⟩
        rw [List.getD_eq_getElem?_getD, ha]; rfl

/-- **C244.** For every operand the summations are the places in its tuple of the tokens that are nowhere else. -/
theorem C244_summations {s : List Char} {f : Form} {W : List (List Tok)} (hf : form s = .ok f) (hW : Reading s W) :
    f.summations.length = W.length ∧ ∀ (j : Nat) (a S : List Nat), f.args[j]? = some a → f.summations[j]? = some S →
      S.Nodup ∧ ∀ q, q ∈ S ↔ ∃ (i : Nat) (t : Tok), a[q]? = some i ∧ f.tokens[i]? = some t ∧ W.countP (fun ws => decide (t ∈ ws)) = 1 := by
  have h := good_of hf hW
  refine ⟨h.lenS, fun j a S ha hS => ?_⟩
  have hj : j < W.length := by rw [← h.lenA]; exact (List.getElem?_eq_some_iff.1 ha).1
  rw [h.summations j hj] at hS
  have hget : f.args.getD j [] = a := by rw [List.getD_eq_getElem?_getD, ha]; rfl
  rw [hget] at hS
  cases hS
  have hmem : ∀ i, occ f.args i = [j] → i ∈ a := by
    intro i hi
    obtain ⟨b, hb, hib⟩ := mem_occ.1 (show j ∈ occ f.args i by rw [hi]; simp)
    rw [ha] at hb
    cases hb; exact hib
  refine ⟨?_, fun q => ?_⟩
  · refine List.Nodup.map_on ?_ (List.nodup_range.filter _)
    intro x hx y hy e
    have hx := hmem x (by simpa using (List.mem_filter.1 hx).2)
    have hy := hmem y (by simpa using (List.mem_filter.1 hy).2)
    have e1 := (getElem?_idxOf (h.nodupA ha)).2 ⟨hx, rfl⟩
    have e2 := (getElem?_idxOf (h.nodupA ha)).2 ⟨hy, rfl⟩
    rw [e, e2] at e1
    exact (Option.some.inj e1).symm
  · simp only [List.mem_map, List.mem_filter, List.mem_range, decide_eq_true_eq]
    constructor
    · rintro ⟨i, ⟨hi, ho⟩, rfl⟩
      have ht := List.getElem?_eq_getElem hi
      obtain ⟨o1, _, _⟩ := occ_words h.tokens h.lenA h.lenP h.shows_ ht
      refine ⟨i, _, (getElem?_idxOf (h.nodupA ha)).2 ⟨hmem i ho, rfl⟩, ht, ?_⟩
      rw [← o1, ho]; rfl
    · rintro ⟨i, t, hq, ht, hc⟩
      obtain ⟨o1, _, _⟩ := occ_words h.tokens h.lenA h.lenP h.shows_ ht
      obtain ⟨hi, rfl⟩ := (getElem?_idxOf (h.nodupA ha)).1 hq
      refine ⟨i, ⟨(List.getElem?_eq_some_iff.1 ht).1, ?_⟩, rfl⟩
      have hm := mem_occ.2 ⟨a, ha, hi⟩
      rw [hc] at o1
      obtain ⟨x, hx⟩ := List.length_eq_one_iff.1 o1
      rw [hx] at hm ⊢
      rw [List.mem_singleton.1 hm]

example : ∃ f, form "ijx,jk(c1),(c1)->i(c1)ky".toList = .ok f ∧
    f.tokens = ["c1".toList, "i".toList, "k".toList, "y".toList, "j".toList, "x".toList] ∧ f.args = [[0, 1, 2, 3], [1, 4, 5], [0, 4, 2], [0]] ∧
    f.contraction = [4] ∧ f.convolution = [0] ∧ f.transfers = [[(0, 1), (1, 0)], [(0, 2), (2, 2)]] ∧
    f.summations = [[3], [2], [], []] := ⟨_, rfl, rfl, rfl, rfl, rfl, rfl, rfl⟩

/-! ## C245: the operands of a string -/

/-- **C245**, as far as it is true: the form has one operand for every part between commas, if the last part is not empty. -/
theorem C245_operands_partial {s : List Char} {f : Form} (hf : form s = .ok f) {lhs rhs : List Char} {ps : List (List Char)}
    (ha : First s lhs rhs) (hs : Split lhs ps) (hl : ps.getLast? ≠ some []) : f.args.length = ps.length + 1 := by
  obtain ⟨W, ⟨l, r, ps', h1, h2, h3⟩, hg⟩ := reading_of hf
  obtain ⟨rfl, rfl⟩ := ha.unique h1
  have := hs.unique h2
  subst this
  rw [hg.lenA, ← h3.length_eq, seen, if_neg hl]
  rfl

example : First "ij,jk,->ik".toList "ij,jk,".toList "ik".toList := arrow_some _ _ _ rfl

/-- **C245** fails: a scalar operand written last is lost, `"ij,->ij"` has one operand only. -/
theorem C245_operands_fails : ∃ (s : List Char) (f : Form) (lhs rhs : List Char) (ps : List (List Char)), form s = .ok f ∧ First s lhs rhs ∧
    Split lhs ps ∧ f.args.length ≠ ps.length + 1 := by
  obtain ⟨f, hf, ha⟩ : ∃ f, form "ij,->ij".toList = .ok f ∧ f.args.length = 2 := ⟨_, rfl, rfl⟩
  refine ⟨_, f, "ij,".toList, "ij".toList, ["ij".toList, []], hf, arrow_some _ _ _ rfl, ?_, by rw [ha]; simp⟩
  exact Split.cons "ij".toList [] [[]] (by decide) (.one [] (by decide))

/-! ## C246: the value of a contraction tree -/

theorem mem_trees {place0 : Nat → Nat} {place : List Nat → Nat} {f : Form} {t : Tree} (hn : f.contraction.Nodup)
    (ht : t ∈ trees place0 place f) : ∃ π, π.Perm f.contraction ∧ t = run place f.tokens [] (Tree.start place0 f.args) π := by
  rw [trees, build_eq _ _ _ _ _ _ _ rfl] at ht
  have hs : ∀ x ∈ (orders f.contraction.length f.contraction).map (run place f.tokens [] (Tree.start place0 f.args)), OMap.Sorted x.levels := by
    intro x hx
    obtain ⟨π, hπ, rfl⟩ := List.mem_map.1 hx
    have hp := (mem_orders _ _ _ rfl).1 hπ
    obtain ⟨M, hM⟩ := Inv.run place π [] _ _ (Inv.start place0 f.args f.tokens) (by simpa using (hp.nodup_iff).2 hn)
    exact hM.sorted
  obtain ⟨h1, _, _, _⟩ := keep_fold _ [] hs (by simp) (by simp)
  rcases h1 t ht with h | h
  · cases h
  · obtain ⟨π, hπ, rfl⟩ := List.mem_map.1 h
    exact ⟨π, (mem_orders _ _ _ rfl).1 hπ, rfl⟩

theorem form_contraction {s : List Char} {f : Form} (hf : form s = .ok f) :
    f.contraction.Nodup ∧ 0 < f.args.length ∧ ∀ c ∈ f.contraction, c ∉ f.args.getD 0 [] := by
  obtain ⟨W, hW, hg⟩ := reading_of hf
  have hpos : 0 < f.args.length := by
    obtain ⟨l, r, ps, _, _, h⟩ := hW
    rw [hg.lenA, ← h.length_eq]; simp
  refine ⟨by rw [hg.contraction]; exact List.nodup_range.filter _, hpos, fun c hc hm => ?_⟩
  rw [hg.contraction, List.mem_filter, decide_eq_true_eq] at hc
  refine hc.2.2 (mem_occ.2 ⟨f.args[0], List.getElem?_eq_getElem hpos, ?_⟩)
  rw [List.getD_eq_getElem?_getD, List.getElem?_eq_getElem hpos] at hm
  exact hm

/-- **C246.** For every order of contraction and wherever the nodes lie in memory: the nodes left open at the end of a tree stand together
for the sum over all contracted indices of the product of all operands. -/
theorem C246_value {α : Type} [CommSemiring α] {s : List Char} {f : Form} (hf : form s = .ok f) (place0 : Nat → Nat)
    (place : List Nat → Nat) (len : Nat → Nat) (X : Nat → (Nat → Nat) → α) (hX : ∀ i < f.args.length, DepOn (f.args.getD i []) (X i))
    {t : Tree} (ht : t ∈ trees place0 place f) (ρ : Nat → Nat) :
    (t.frontier.map fun n => val len X n ρ).prod =
      sumOver len (fun σ => ((List.range f.args.length).map fun i => X i σ).prod) f.contraction ρ := by
  have hn := (form_contraction hf).1
  obtain ⟨π, hp, rfl⟩ := mem_trees hn ht
  have := (ValInv.run place f.tokens π [] _ (ValInv.start (len := len) place0 f.args hX)).value ρ
  rw [← prodVal_eq, this, List.nil_append]
  exact Einsum.sumOver_perm len _ ((List.reverse_perm π).trans hp) (List.nodup_reverse.2 ((hp.nodup_iff).2 hn)) ρ

/-- **C246.** No contracted index is left in an open node. -/
theorem C246_done {s : List Char} {f : Form} (hf : form s = .ok f) (place0 : Nat → Nat) (place : List Nat → Nat) {t : Tree}
    (ht : t ∈ trees place0 place f) : ∀ n ∈ t.frontier, ∀ c ∈ f.contraction, c ∉ n.indices := by
  have hn := (form_contraction hf).1
  obtain ⟨π, hp, rfl⟩ := mem_trees hn ht
  obtain ⟨M, hM⟩ := Inv.run place π [] _ _ (Inv.start place0 f.args f.tokens) (by simpa using (hp.nodup_iff).2 hn)
  intro n hnf c hc
  exact taken_none.1 (hM.mem_front.1 hnf).2 c (by simpa using hp.symm.subset hc)

/-- A chain of three matrices. -/
def chain : Form :=
  match form "ij,jk,kl->il".toList with
  | .ok f => f
  | _ => ⟨[], [], [], [], [], [], [], []⟩

theorem chain_ok : form "ij,jk,kl->il".toList = .ok chain := rfl

example : chain.args = [[0, 1], [0, 2], [2, 3], [3, 1]] ∧ chain.contraction = [2, 3] ∧
    (trees (fun _ => 0) (fun _ => 0) chain).length = 2 ∧
    (trees (fun _ => 0) (fun _ => 0) chain).map (fun t => t.frontier.map Node.level) = [[2, 0], [2, 0]] := by decide

/-! ## C247: the root -/

/-- **C247**, as far as it is true: if nothing but the root and the result is left open, the root stands for the whole contraction. -/
theorem C247_root_partial {α : Type} [CommSemiring α] {s : List Char} {f : Form} (hf : form s = .ok f) (place0 : Nat → Nat)
    (place : List Nat → Nat) (len : Nat → Nat) (X : Nat → (Nat → Nat) → α) (h0 : ∀ σ, X 0 σ = 1)
    (hX : ∀ i < f.args.length, DepOn (f.args.getD i []) (X i)) {t : Tree} (ht : t ∈ trees place0 place f) (hc : f.contraction ≠ [])
    (h2 : t.frontier.length = 2) : ∃ n, t.root = some n ∧ ∀ ρ, val len X n ρ =
      sumOver len (fun σ => ((List.range (f.args.length - 1)).map fun i => X (i + 1) σ).prod) f.contraction ρ := by
  have hval := C246_value hf place0 place len X hX ht
  obtain ⟨hn, hpos, h3⟩ := form_contraction hf
  obtain ⟨π, hp, rfl⟩ := mem_trees hn ht
  obtain ⟨M, hM⟩ := Inv.run place π [] _ _ (Inv.start place0 f.args f.tokens) (by simpa using (hp.nodup_iff).2 hn)
  have hπ : π ≠ [] := by rintro rfl; exact hc (List.nil_perm.1 hp)
  obtain ⟨n, hnf, hroot, hlast⟩ := run_root place f.tokens π [] (Tree.start place0 f.args) hπ
  refine ⟨n, hroot, fun ρ => ?_⟩
  have ha : argNode f.args 0 ∈ (run place f.tokens [] (Tree.start place0 f.args) π).frontier :=
    hM.mem_front.2 ⟨hM.args_ 0 hpos, taken_none.2 fun c hcp => h3 c (hp.subset (by simpa using hcp))⟩
  have hne : n ≠ argNode f.args 0 := by
    rintro rfl
    rw [List.getLast?_eq_getLast_of_ne_nil hπ] at hlast
    simp [argNode, key] at hlast
  have hnd : (run place f.tokens [] (Tree.start place0 f.args) π).frontier.Nodup :=
    (hM.front.nodup_iff).2 ((List.Nodup.of_map _ hM.keys).filter _)
  have hperm : [n, argNode f.args 0].Perm (run place f.tokens [] (Tree.start place0 f.args) π).frontier := by
    have hsub : [n, argNode f.args 0] ⊆ (run place f.tokens [] (Tree.start place0 f.args) π).frontier := by
      intro x hx
      simp only [List.mem_cons, List.not_mem_nil, or_false] at hx
      rcases hx with rfl | rfl
      · exact hnf
      · exact ha
    exact (List.subperm_of_subset (by simp [hne]) hsub).perm_of_length_le (by rw [h2]; simp)
  have h := hval ρ
  rw [← (hperm.map _).prod_eq] at h
  have hv0 : val len X (argNode f.args 0) ρ = 1 := by rw [argNode, val]; exact h0 ρ
  simp only [List.map_cons, List.map_nil, List.prod_cons, List.prod_nil, mul_one, hv0] at h
  rw [h]
  congr 1
  funext σ
  obtain ⟨k, hk⟩ : ∃ k, f.args.length = k + 1 := ⟨f.args.length - 1, by omega⟩
  rw [hk, List.range_succ_eq_map, List.map_cons, List.prod_cons, h0, one_mul, List.map_map]
  rfl

example : ∀ t ∈ trees (fun _ => 0) (fun _ => 0) chain, t.frontier.length = 2 := by decide

/-- Two products that have nothing to do with each other. -/
def twoPairs : Form :=
  match form "ij,jk,lm,mn->ikln".toList with
  | .ok f => f
  | _ => ⟨[], [], [], [], [], [], [], []⟩

/-- **C247** fails: the root of the tree for `"ij,jk,lm,mn->ikln"` stands for the product of two of the operands only. -/
theorem C247_root_fails : ∃ (s : List Char) (f : Form) (t : Tree) (n : Node) (len : Nat → Nat) (X : Nat → (Nat → Nat) → Nat),
    form s = .ok f ∧ (∀ i < f.args.length, DepOn (f.args.getD i []) (X i)) ∧ (∀ σ, X 0 σ = 1) ∧
    t ∈ trees (fun _ => 0) (fun _ => 0) f ∧ t.root = some n ∧
    val len X n (fun _ => 0) ≠ sumOver len (fun σ => ((List.range (f.args.length - 1)).map fun i => X (i + 1) σ).prod) f.contraction (fun _ => 0) := by
  refine ⟨"ij,jk,lm,mn->ikln".toList, twoPairs, (trees (fun _ => 0) (fun _ => 0) twoPairs).headD ⟨none, [], []⟩,
    (((trees (fun _ => 0) (fun _ => 0) twoPairs).headD ⟨none, [], []⟩).root).getD (.arg 0 [] []), fun _ => 1,
    fun i _ => if i = 0 then 1 else 2, rfl, fun i _ σ σ' _ => rfl, fun _ => rfl, ?_, rfl, ?_⟩
  · exact List.mem_cons_self
  · decide

/-- **C247** fails: without contractions there is no root, and asking for the text of the tree throws. -/
theorem C247_no_root_fails : ∃ (s : List Char) (f : Form) (t : Tree), form s = .ok f ∧ t ∈ trees (fun _ => 0) (fun _ => 0) f ∧ t.root.isNone ∧
    t.strOk = .throw := by
  obtain ⟨f, hf, ht⟩ : ∃ f, form "i,j->ij".toList = .ok f ∧ ∃ t, trees (fun _ => 0) (fun _ => 0) f = [t] ∧ t.root.isNone ∧ t.strOk = .throw :=
    ⟨_, rfl, _, rfl, rfl, rfl⟩
  obtain ⟨t, h1, h2, h3⟩ := ht
  exact ⟨_, f, t, hf, by rw [h1]; simp, h2, h3⟩

/-- **C247** fails: two orders with the same levels, of which one tree is dropped, have different roots. -/
theorem C247_kept_root_fails : ∃ (s : List Char) (f : Form) (π π' : List Nat), form s = .ok f ∧ π.Perm f.contraction ∧ π'.Perm f.contraction ∧
    (run (fun _ => 0) f.tokens [] (Tree.start (fun _ => 0) f.args) π).levels = (run (fun _ => 0) f.tokens [] (Tree.start (fun _ => 0) f.args) π').levels ∧
    (run (fun _ => 0) f.tokens [] (Tree.start (fun _ => 0) f.args) π).root.map key ≠
      (run (fun _ => 0) f.tokens [] (Tree.start (fun _ => 0) f.args) π').root.map key :=
  ⟨"ij,jk,lm,mn->ikln".toList, twoPairs, [4, 5], [5, 4], rfl, by decide, by decide, by decide, by decide⟩

/-! ## C248: one node -/

/-- **C248.** The indices of a contraction are those of its children but the contracted one, each once; the external ones are in all
children, the internal ones are the rest. -/
theorem C248_indices (c : Nat) (tok : Tok) (ch : List Node) :
    (Node.contract c tok ch).indices.Nodup ∧ (Node.contract c tok ch).children = ch ∧
    (∀ q, q ∈ (Node.contract c tok ch).indices ↔ q ≠ c ∧ ∃ n ∈ ch, q ∈ n.indices) ∧
    (∀ q, q ∈ (Node.contract c tok ch).external ↔ q ∈ (Node.contract c tok ch).indices ∧ ∀ n ∈ ch, q ∈ n.indices) ∧
    (∀ q, q ∈ (Node.contract c tok ch).internal ↔ q ∈ (Node.contract c tok ch).indices ∧ ∃ n ∈ ch, q ∉ n.indices) := by
  refine ⟨contract_nodup _ _ _, rfl, fun q => mem_contract, fun q => ?_, fun q => ?_⟩
  · show q ∈ ((Node.contract c tok ch).indices.filter fun p => ch.all fun q => decide (p ∈ q.indices)).toFinset ↔ _
    rw [List.mem_toFinset, List.mem_filter, List.all_eq_true]
    simp
  · show q ∈ ((Node.contract c tok ch).indices.filter fun p => !ch.all fun q => decide (p ∈ q.indices)).toFinset ↔ _
    rw [List.mem_toFinset, List.mem_filter]
    simp

/-- **C248.** The level of a contraction is one more than the highest level of its children. -/
theorem C248_level (c : Nat) (tok : Tok) (ch : List Node) :
    (∀ n ∈ ch, n.level < (Node.contract c tok ch).level) ∧ (ch ≠ [] → ∃ n ∈ ch, n.level + 1 = (Node.contract c tok ch).level) := by
  refine ⟨fun n hn => level_contract hn, fun hne => ?_⟩
  obtain ⟨_, h2, h3⟩ := max_fold ch 0
  rcases h3 with h | ⟨n, hn, h⟩
  · obtain ⟨x, l, rfl⟩ := List.exists_cons_of_ne_nil hne
    have := h2 x (by simp)
    exact ⟨x, by simp, by show _ = _ + 1; omega⟩
  · exact ⟨n, hn, by show _ = _ + 1; omega⟩

example : (Node.contract 2 [] [.arg 1 [0, 2, 4] [], .arg 2 [2, 3, 4] []]).indices = [0, 4, 3] ∧
    (Node.contract 2 [] [.arg 1 [0, 2, 4] [], .arg 2 [2, 3, 4] []]).external = {4} ∧
    (Node.contract 2 [] [.arg 1 [0, 2, 4] [], .arg 2 [2, 3, 4] []]).internal = {0, 3} := by decide

/-! ## C249: all orders -/

/-- The tree for one order of contraction. -/
def orderTree (place0 : Nat → Nat) (place : List Nat → Nat) (f : Form) (π : List Nat) : Tree :=
  run place f.tokens [] (Tree.start place0 f.args) π

/-- **C249.** Every order of the contractions has a tree with the same levels in the list, every tree of the list comes from an order, and
no two trees in the list have the same levels. -/
theorem C249_orders {s : List Char} {f : Form} (hf : form s = .ok f) (place0 : Nat → Nat) (place : List Nat → Nat) :
    (∀ π : List Nat, π.Perm f.contraction → ∃ t ∈ trees place0 place f, (orderTree place0 place f π).levels = t.levels) ∧
    (∀ t ∈ trees place0 place f, ∃ π : List Nat, π.Perm f.contraction ∧ t = orderTree place0 place f π) ∧
    ((trees place0 place f).map Tree.levels).Nodup := by
  have hn := (form_contraction hf).1
  have hs : ∀ x ∈ (orders f.contraction.length f.contraction).map (run place f.tokens [] (Tree.start place0 f.args)), OMap.Sorted x.levels := by
    intro x hx
    obtain ⟨π, hπ, rfl⟩ := List.mem_map.1 hx
    have hp := (mem_orders _ _ _ rfl).1 hπ
    obtain ⟨M, hM⟩ := Inv.run place π [] _ _ (Inv.start place0 f.args f.tokens) (by simpa using (hp.nodup_iff).2 hn)
    exact hM.sorted
  obtain ⟨_, _, h3, h4⟩ := keep_fold _ [] hs (by simp) (by simp)
  refine ⟨?_, fun t ht => mem_trees hn ht, ?_⟩
  · intro π hπ
    rw [trees, build_eq _ _ _ _ _ _ _ rfl]
    exact h3 _ (List.mem_map.2 ⟨π, (mem_orders _ _ _ rfl).2 hπ, rfl⟩)
  · rw [trees, build_eq _ _ _ _ _ _ _ rfl]
    exact h4

/-- **C249.** At every level the indices are those whose node has that level; every contracted index is at one level. -/
theorem C249_levels {s : List Char} {f : Form} (hf : form s = .ok f) (place0 : Nat → Nat) (place : List Nat → Nat) {t : Tree}
    (ht : t ∈ trees place0 place f) : ∀ c ∈ f.contraction, ∃! l, ∃ S, OMap.find? l t.levels = some S ∧ c ∈ S := by
  have hn := (form_contraction hf).1
  obtain ⟨π, hp, rfl⟩ := mem_trees hn ht
  obtain ⟨M, hM⟩ := Inv.run place π [] _ _ (Inv.start place0 f.args f.tokens) (by simpa using (hp.nodup_iff).2 hn)
  intro c hc
  obtain ⟨m, hm, k⟩ := hM.made c (by simpa using hp.symm.subset hc)
  refine ⟨m.level, (hM.levels _ _).2 ⟨m, hm, k, rfl⟩, fun l hl => ?_⟩
  obtain ⟨m', hm', k', rfl⟩ := (hM.levels _ _).1 hl
  rw [hM.uniq hm hm' (k.trans k'.symm)]

example : (trees (fun _ => 0) (fun _ => 0) chain).map Tree.levels = [[(1, {2}), (2, {3})], [(1, {3}), (2, {2})]] := by decide

example : (trees (fun _ => 0) (fun _ => 0) twoPairs).map Tree.levels = [[(1, {4, 5})]] := by decide

/-! ## C250: dropping trees with the same levels loses nothing -/

/-- **C250.** Two orders that give the same levels give the same tree, up to the order of children and indices, even when the nodes lie
elsewhere in memory: what is left open can be matched node by node. -/
theorem C250_same {s : List Char} {f : Form} (hf : form s = .ok f) (place0 place0' : Nat → Nat) (place place' : List Nat → Nat)
    {π π' : List Nat} (hπ : π.Perm f.contraction) (hπ' : π'.Perm f.contraction)
    (he : (orderTree place0 place f π).levels = (orderTree place0' place' f π').levels) :
    ∃ F, F.Perm (orderTree place0' place' f π').frontier ∧ List.Forall₂ Same (orderTree place0 place f π).frontier F := by
  have hn := (form_contraction hf).1
  obtain ⟨M, hM⟩ := Inv.run place π [] _ _ (Inv.start place0 f.args f.tokens) (by simpa using (hπ.nodup_iff).2 hn)
  obtain ⟨M', hM'⟩ := Inv.run place' π' [] _ _ (Inv.start place0' f.args f.tokens) (by simpa using (hπ'.nodup_iff).2 hn)
  exact same_frontier hM hM' he fun c => by simp only [List.nil_append]; rw [hπ.mem_iff, hπ'.mem_iff]

example : (orderTree (fun _ => 0) (fun _ => 0) twoPairs [4, 5]).levels = (orderTree (fun _ => 1) (fun _ => 1) twoPairs [5, 4]).levels := by decide

/-! ## C251: numbers and names of the operands -/

/-- **C251**, as far as it is true: every operand has one node in a new tree, numbered by its place counted from one. -/
theorem C251_args_partial (place : Nat → Nat) (args : List (List Nat)) :
    (Tree.start place args).frontier.Perm ((List.range args.length).map (argNode args)) ∧
    ∀ i < args.length, ∃ nm, argNode args i = .arg (i + 1) (args.getD i []) nm :=
  ⟨start_front place args, fun i _ => ⟨_, rfl⟩⟩

/-- **C251** fails: the first operand of `"ij,jk->ik"` is `args[1]` but its node has the number 2, and its name is 66 characters with code
1, not `B`. -/
theorem C251_args_fails : ∃ (s : List Char) (f : Form) (n : Node) (id : Nat) (nm : Tok), form s = .ok f ∧
    n ∈ (Tree.start (fun i => i) f.args).frontier ∧ n = .arg id (f.args.getD 1 []) nm ∧ (f.args.countP fun a => decide (a = f.args.getD 1 [])) = 1 ∧
    id ≠ 1 ∧ nm = List.replicate 66 (Char.ofNat 1) ∧ nm ≠ ['B'] := by
  obtain ⟨f, hf, h⟩ : ∃ f, form "ij,jk->ik".toList = .ok f ∧ f.args = [[0, 1], [0, 2], [2, 1]] := ⟨_, rfl, rfl⟩
  refine ⟨_, f, .arg 2 [0, 2] (List.replicate 66 (Char.ofNat 1)), 2, List.replicate 66 (Char.ofNat 1), hf, ?_, by rw [h]; rfl, by rw [h]; decide,
    by decide, rfl, by decide⟩
  rw [h]
  refine (start_front _ _).symm.subset (List.mem_map.2 ⟨1, by decide, rfl⟩)

/-! ## C252: the order of index tuples -/

theorem go_spec : ∀ (a b : List Nat), a.length = b.length → (tupleLt.go a b = true ↔ a < b)
  | [], [], _ => by simp [tupleLt.go]
  | x :: a, y :: b, h => by
    rw [tupleLt.go, List.cons_lt_cons_iff, ← go_spec a b (by simpa using h)]
    by_cases h1 : x < y
    · simp [h1]
    · by_cases h2 : y < x
      · have : ¬ x = y := by omega
        simp [h1, h2, this]
      · have : x = y := by omega
        simp [this]

/-- **C252.** The order of index tuples compares lengths first and then entries; so any two different tuples are ordered one way, and the
order is transitive. -/
theorem C252_order (a b c : List Nat) :
    (tupleLt a b = true ↔ a.length < b.length ∨ (a.length = b.length ∧ a < b)) ∧ tupleLt a a = false ∧
    (tupleLt a b = true → tupleLt b c = true → tupleLt a c = true) ∧ (a ≠ b → (tupleLt a b = true ↔ ¬ tupleLt b a = true)) := by
  have key : ∀ a b : List Nat, tupleLt a b = true ↔ a.length < b.length ∨ (a.length = b.length ∧ a < b) := by
    intro a b
    unfold tupleLt
    by_cases h1 : a.length < b.length
    · simp [h1]
    · by_cases h2 : b.length < a.length
      · have : ¬ a.length = b.length := by omega
        simp [h1, h2, this]
      · have h3 : a.length = b.length := by omega
        rw [if_neg h1, if_neg h2, go_spec a b h3]
        simp [h3]
  refine ⟨key a b, ?_, ?_, ?_⟩
  · rw [Bool.eq_false_iff, ne_eq, key]
    simp
  · rw [key, key, key]
    rintro (h1 | ⟨h1, h1'⟩) (h2 | ⟨h2, h2'⟩)
    · left; omega
    · left; omega
    · left; omega
    · exact Or.inr ⟨by omega, lt_trans h1' h2'⟩
  · intro hne
    rw [key, key]
    constructor
    · rintro (h1 | ⟨h1, h1'⟩) (h2 | ⟨h2, h2'⟩)
      · omega
      · omega
      · omega
      · exact lt_asymm h1' h2'
    · intro h
      by_contra hn
      simp only [not_or, not_and] at h hn
      have hl : a.length = b.length := by omega
      rcases lt_trichotomy a b with h1 | h1 | h1
      · exact hn.2 hl h1
      · exact hne h1
      · exact h.2 hl.symm h1

example : tupleLt [5, 0] [1, 2, 3] = true ∧ tupleLt [1, 2, 3] [1, 3, 0] = true ∧ tupleLt [1, 2, 3] [5, 0] = false := by decide

end CT
end Cnine
