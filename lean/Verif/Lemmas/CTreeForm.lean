import Verif.Model.CTree
import Verif.Lemmas.OMap
import Verif.Lemmas.EinsumForm

/-! # Reading einsum strings with longer tokens -/

namespace Cnine
namespace CT

open Einsum (positions mem_positions positions_append positions_cons setIds setIds_getElem?)

/-- The tokens of a string: single characters, or anything between `(` and the next `)`. -/
inductive Words : List Char → List Tok → Prop
  | nil : Words [] []
  | char (c : Char) (s : List Char) (ws : List Tok) (h : c ≠ '(') (hs : Words s ws) : Words (c :: s) ([c] :: ws)
  | group (w s : List Char) (ws : List Tok) (h : ')' ∉ w) (hs : Words s ws) : Words ('(' :: (w ++ ')' :: s)) (w :: ws)

/-- The map of the tokens read so far to their places. -/
structure Read (r : OMap Tok (List Nat)) (ws : List Tok) : Prop where
  sorted : OMap.Sorted r
  look : ∀ t, OMap.find? t r = if t ∈ ws then some (positions t ws) else none

theorem Read.nil : Read [] [] := ⟨OMap.sorted_nil, fun t => by simp [OMap.find?]⟩

theorem Read.push {r : OMap Tok (List Nat)} {ws : List Tok} (h : Read r ws) (t : Tok) : Read (pushAt t ws.length r) (ws ++ [t]) := by
  refine ⟨h.sorted.set _ _, fun t' => ?_⟩
  rw [pushAt, OMap.find?_set, h.look t]
  have hp : positions t' (ws ++ [t]) = positions t' ws ++ if t = t' then [ws.length] else [] := by
    rw [positions_append]
    congr 1
    rw [positions_cons]
    by_cases e : t = t'
    · simp [e, positions]
    · simp [e, positions]
  by_cases e : t' = t
  · subst e
    rw [if_pos rfl, if_pos (show t' ∈ ws ++ [t'] by simp), hp, if_pos rfl]
    by_cases m : t' ∈ ws
    · simp [m]
    · have : positions t' ws = [] := by
        rw [List.eq_nil_iff_forall_not_mem]
        intro i hi
        exact m (List.mem_of_getElem? (mem_positions.1 hi))
      simp [m, this]
  · rw [if_neg e, h.look t', hp, if_neg (Ne.symm e), List.append_nil]
    simp [e]

theorem split_group {s : List Char} (h : ')' ∈ s) :
    s = s.takeWhile (· ≠ ')') ++ ')' :: (s.dropWhile (· ≠ ')')).drop 1 ∧ ')' ∉ s.takeWhile (· ≠ ')') := by
  induction s with
  | nil => cases h
  | cons c s ih =>
    by_cases e : c = ')'
    · subst e; simp
    · have := ih (by simpa [Ne.symm e] using h)
      simp only [List.takeWhile_cons, List.dropWhile_cons, ne_eq, e, not_false_eq_true, decide_true, if_true, List.cons_append,
        List.mem_cons, not_or]
      exact ⟨by rw [← this.1], Ne.symm e, this.2⟩

theorem take_group {w s : List Char} (h : ')' ∉ w) :
    (w ++ ')' :: s).takeWhile (· ≠ ')') = w ∧ ((w ++ ')' :: s).dropWhile (· ≠ ')')).drop 1 = s := by
  induction w with
  | nil => simp
  | cons c w ih =>
    simp only [List.mem_cons, not_or] at h
    have := ih h.2
    simp only [List.cons_append, List.takeWhile_cons, List.dropWhile_cons, ne_eq, Ne.symm h.1, not_false_eq_true, decide_true, if_true]
    exact ⟨by rw [this.1], this.2⟩

theorem scan_spec : ∀ (k : Nat) (s : List Char) (pre : List Tok) (r : OMap Tok (List Nat)), s.length ≤ k → Read r pre →
    (∃ ws r', Words s ws ∧ scan k s pre.length r = .ok r' ∧ Read r' (pre ++ ws)) ∨
    (scan k s pre.length r = .throw ∧ ∀ ws, ¬ Words s ws)
  | 0, s, pre, r, hk, hr => by
    have : s = [] := List.length_eq_zero_iff.1 (by omega)
    subst this
    exact Or.inl ⟨[], r, .nil, rfl, by simpa using hr⟩
  | k + 1, [], pre, r, _, hr => Or.inl ⟨[], r, .nil, rfl, by simpa using hr⟩
  | k + 1, c :: s, pre, r, hk, hr => by
    rw [scan]
    by_cases hc : c = '('
    · subst hc
      rw [if_neg (by simp)]
      by_cases hm : ')' ∈ s
      · rw [if_pos hm]
        obtain ⟨e, hn⟩ := split_group hm
        generalize s.takeWhile (· ≠ ')') = w at e hn ⊢
        generalize (s.dropWhile (· ≠ ')')).drop 1 = s' at e hn ⊢
        subst e
        have hl : s'.length ≤ k := by simp at hk; omega
        have := scan_spec k s' (pre ++ [w]) _ hl (hr.push w)
        rw [List.length_append] at this
        rcases this with ⟨ws, r', h1, h2, h3⟩ | ⟨h1, h2⟩
        · exact Or.inl ⟨w :: ws, r', .group w s' ws hn h1, h2, by simpa using h3⟩
        · refine Or.inr ⟨h1, fun ws hw => ?_⟩
          generalize hq : '(' :: (w ++ ')' :: s') = q at hw
          cases hw with
          | nil => cases hq
          | char c s ws h hs => cases hq; exact h rfl
          | group w1 s1 ws h hs =>
            have e := (List.cons.inj hq).2
            have t1 := (take_group (s := s') hn).2
            rw [e, (take_group h).2] at t1
            subst t1
            exact h2 ws hs
      · rw [if_neg hm]
        refine Or.inr ⟨rfl, fun ws hw => ?_⟩
        generalize hq : '(' :: s = q at hw
        cases hw with
        | nil => cases hq
        | char c s ws h hs => cases hq; exact h rfl
        | group w1 s1 ws h hs =>
          have e := (List.cons.inj hq).2
          exact hm (by rw [e]; simp)
    · rw [if_pos hc]
      have hl : s.length ≤ k := by simp at hk; omega
      have := scan_spec k s (pre ++ [[c]]) _ hl (hr.push [c])
      rw [List.length_append] at this
      rcases this with ⟨ws, r', h1, h2, h3⟩ | ⟨h1, h2⟩
      · exact Or.inl ⟨[c] :: ws, r', .char c s ws hc h1, h2, by simpa using h3⟩
      · refine Or.inr ⟨h1, fun ws hw => ?_⟩
        generalize hq : c :: s = q at hw
        cases hw with
        | nil => cases hq
        | char c s ws h hs => cases hq; exact h2 _ hs
        | group w1 s1 ws h hs => exact hc (List.cons.inj hq).1

/-- The dictionary and the list of tokens say the same. -/
structure Names.Ok (st : Names) : Prop where
  sorted : OMap.Sorted st.dict
  len : st.dict.length = st.tokens.length
  look : ∀ t i, OMap.find? t st.dict = some i ↔ st.tokens[i]? = some t

theorem Names.Ok.nodup {st : Names} (h : st.Ok) : st.tokens.Nodup := by
  rw [List.nodup_iff_injective_get]
  intro i j e
  have hi := (h.look (st.tokens.get i) i).2 (by simp)
  have hj := (h.look (st.tokens.get j) j).2 (by simp)
  rw [e, hj] at hi
  exact Fin.ext (Option.some.inj hi).symm

theorem Names.ok_nil : (⟨[], []⟩ : Names).Ok := ⟨OMap.sorted_nil, rfl, by simp [OMap.find?]⟩

theorem Names.number_ok {st : Names} (h : st.Ok) (t : Tok) :
    (st.number t).2.Ok ∧ (st.number t).2.tokens[(st.number t).1]? = some t ∧ st.tokens <+: (st.number t).2.tokens ∧
      ∀ u ∈ (st.number t).2.tokens, u ∈ st.tokens ∨ u = t := by
  unfold Names.number
  cases e : OMap.find? t st.dict with
  | some id => exact ⟨h, (h.look t id).1 e, List.prefix_rfl, fun u hu => Or.inl hu⟩
  | none =>
    refine ⟨⟨h.sorted.set _ _, ?_, ?_⟩, ?_, List.prefix_append _ _, ?_⟩
    · rw [OMap.length_set h.sorted, e]; simp [h.len]
    · intro u i
      show OMap.find? u (OMap.set t st.dict.length st.dict) = some i ↔ (st.tokens ++ [t])[i]? = some u
      rw [OMap.find?_set, h.len]
      by_cases hu : u = t
      · subst hu
        rw [if_pos rfl, List.getElem?_append]
        have hnone : ∀ i, st.tokens[i]? ≠ some u := fun i hi => by
          have := (h.look u i).2 hi
          rw [e] at this; cases this
        split
        · rename_i hlt
          constructor
          · intro e'; cases e'; omega
          · intro e'; exact absurd e' (hnone i)
        · rename_i hge
          constructor
          · intro e'; cases e'; simp
          · intro e'
            have : i - st.tokens.length = 0 := by
              by_contra hne
              rw [List.getElem?_eq_none (by simp; omega)] at e'
              cases e'
            congr 1; omega
      · rw [if_neg hu, h.look, List.getElem?_append]
        split
        · rfl
        · rename_i hge
          rw [List.getElem?_eq_none (by omega)]
          simp only [reduceCtorEq, false_iff]
          intro e'
          have : u ∈ [t] := List.mem_of_getElem? e'
          simp at this; exact hu this
    · simp [h.len]
    · intro u hu; simpa using hu

theorem numberAll_ok : ∀ (r : OMap Tok (List Nat)) {st : Names}, st.Ok →
    (numberAll st r).1.Ok ∧ st.tokens <+: (numberAll st r).1.tokens ∧
      List.Forall₂ (fun id p => (numberAll st r).1.tokens[id]? = some p.1) (numberAll st r).2.1 r ∧
      (numberAll st r).2.2 = r.map Prod.snd ∧ ∀ u ∈ (numberAll st r).1.tokens, u ∈ st.tokens ∨ u ∈ r.map Prod.fst
  | [], st, h => ⟨h, List.prefix_rfl, .nil, rfl, fun u hu => Or.inl hu⟩
  | (t, v) :: r, st, h => by
    obtain ⟨a1, a2, a3, a4⟩ := Names.number_ok h t
    obtain ⟨b1, b2, b3, b4, b5⟩ := numberAll_ok r a1
    refine ⟨b1, a3.trans b2, .cons ?_ b3, ?_, ?_⟩
    · obtain ⟨l, hl⟩ := b2
      show (numberAll (st.number t).2 r).1.tokens[(st.number t).1]? = some t
      rw [← hl, List.getElem?_append_left (List.getElem?_eq_some_iff.1 a2).1]
      exact a2
    · show v :: _ = _; rw [b4]; rfl
    · intro u hu
      rcases b5 u hu with e | e
      · rcases a4 u e with e | e
        · exact Or.inl e
        · exact Or.inr (by simp [e])
      · exact Or.inr (by simp only [List.map_cons, List.mem_cons]; exact Or.inr e)

/-- The tuple `a` and the places `m` describe a string of tokens. -/
structure Shows (tokens : List Tok) (a : List Nat) (m : List (List Nat)) (ws : List Tok) : Prop where
  same : a.length = m.length
  nodup : a.Nodup
  into : ∀ id ∈ a, ∃ t ∈ ws, tokens[id]? = some t
  cover : ∀ t ∈ ws, ∃ id ∈ a, tokens[id]? = some t
  place : ∀ (i id : Nat) (p : List Nat), a[i]? = some id → m[i]? = some p → ∃ t, tokens[id]? = some t ∧ p = positions t ws

theorem getElem?_prefix {β : Type} {l l' : List β} (hp : l <+: l') {i : Nat} {t : β} (e : l[i]? = some t) : l'[i]? = some t := by
  obtain ⟨r, rfl⟩ := hp
  rw [List.getElem?_append_left (List.getElem?_eq_some_iff.1 e).1]; exact e

theorem Shows.mono {tokens tokens' : List Tok} {a : List Nat} {m : List (List Nat)} {ws : List Tok} (h : Shows tokens a m ws)
    (hp : tokens <+: tokens') : Shows tokens' a m ws := by
  refine ⟨h.same, h.nodup, fun id hi => ?_, fun t ht => ?_, fun i id p hi hq => ?_⟩
  · obtain ⟨t, ht, e⟩ := h.into id hi
    exact ⟨t, ht, getElem?_prefix hp e⟩
  · obtain ⟨id, hi, e⟩ := h.cover t ht
    exact ⟨id, hi, getElem?_prefix hp e⟩
  · obtain ⟨t, e, ep⟩ := h.place i id p hi hq
    exact ⟨t, getElem?_prefix hp e, ep⟩

theorem nodup_getElem? {β : Type} {l : List β} (h : l.Nodup) {i j : Nat} {t : β} (hi : l[i]? = some t) (hj : l[j]? = some t) : i = j := by
  obtain ⟨h1, e1⟩ := List.getElem?_eq_some_iff.1 hi
  obtain ⟨h2, e2⟩ := List.getElem?_eq_some_iff.1 hj
  exact (h.getElem_inj_iff).1 (e1.trans e2.symm)

theorem Read.keys {r : OMap Tok (List Nat)} {ws : List Tok} (h : Read r ws) (t : Tok) : t ∈ r.map Prod.fst ↔ t ∈ ws := by
  rw [← OMap.find?_isSome, h.look]
  by_cases m : t ∈ ws <;> simp [m]

theorem tokenize_ok {st : Names} (h : st.Ok) (s : List Char) :
    (∃ ws r, Words s ws ∧ tokenize st s = .ok r ∧ r.1.Ok ∧ st.tokens <+: r.1.tokens ∧ Shows r.1.tokens r.2.1 r.2.2 ws ∧
      ∀ u ∈ r.1.tokens, u ∈ st.tokens ∨ u ∈ ws) ∨ (tokenize st s = .throw ∧ ∀ ws, ¬ Words s ws) := by
  unfold tokenize
  rcases scan_spec s.length s [] [] le_rfl Read.nil with ⟨ws, r, h1, h2, h3⟩ | ⟨h1, h2⟩
  · left
    rw [List.length_nil] at h2
    rw [h2]
    rw [List.nil_append] at h3
    obtain ⟨a1, a2, a3, a4, a5⟩ := numberAll_ok r h
    refine ⟨ws, _, h1, rfl, a1, a2, ⟨?_, ?_, ?_, ?_, ?_⟩, fun u hu => ?_⟩
    · rw [a4, List.length_map]; exact a3.length_eq
    · rw [List.nodup_iff_injective_get]
      intro i j e
      have hl := a3.length_eq
      have key : ∀ i : Fin (numberAll st r).2.1.length, (numberAll st r).1.tokens[(numberAll st r).2.1.get i]? =
          some (r.map Prod.fst)[i.1]! := fun i => by
        have := a3.get (i := i.1) i.2 (by have := i.2; omega)
        rw [List.get_eq_getElem] at this ⊢
        rw [this]
        have hi := i.2
        simp [show i.1 < r.length by omega]
      have e1 := key i
      rw [e, key j] at e1
      have hi := i.2
      have hj := j.2
      have := Option.some.inj e1
      rw [getElem!_pos _ _ (by simp; omega), getElem!_pos _ _ (by simp; omega)] at this
      exact Fin.ext ((h3.sorted.nodup.getElem_inj_iff).1 this).symm
    · intro id hi
      obtain ⟨i, hlt, e⟩ := List.mem_iff_getElem.1 hi
      have hlt' : i < r.length := a3.length_eq ▸ hlt
      have := a3.get hlt hlt'
      rw [List.get_eq_getElem, List.get_eq_getElem, e] at this
      exact ⟨_, (h3.keys _).1 (List.mem_map.2 ⟨_, List.getElem_mem hlt', rfl⟩), this⟩
    · intro t ht
      obtain ⟨p, hp, e⟩ := List.mem_map.1 ((h3.keys t).2 ht)
      obtain ⟨i, hlt', e'⟩ := List.mem_iff_getElem.1 hp
      have hlt : i < (numberAll st r).2.1.length := a3.length_eq ▸ hlt'
      have := a3.get hlt hlt'
      rw [List.get_eq_getElem, List.get_eq_getElem, e', e] at this
      exact ⟨_, List.getElem_mem hlt, this⟩
    · intro i id p hi hp
      obtain ⟨hlt, e⟩ := List.getElem?_eq_some_iff.1 hi
      have hlt' : i < r.length := a3.length_eq ▸ hlt
      have := a3.get hlt hlt'
      rw [List.get_eq_getElem, List.get_eq_getElem, e] at this
      refine ⟨_, this, ?_⟩
      rw [a4, List.getElem?_map, List.getElem?_eq_getElem hlt'] at hp
      have hf := OMap.find?_of_mem h3.sorted (show (r[i].1, r[i].2) ∈ r from List.getElem_mem hlt')
      rw [h3.look] at hf
      split at hf
      · cases hp; exact (Option.some.inj hf).symm
      · cases hf
    · rcases a5 u hu with e | e
      · exact Or.inl e
      · exact Or.inr ((h3.keys u).1 e)
  · right
    rw [List.length_nil] at h1
    rw [h1]
    exact ⟨rfl, h2⟩

theorem tokenizeAll_ok : ∀ (l : List (List Char)) {st : Names}, st.Ok →
    (∃ W r, List.Forall₂ Words l W ∧ tokenizeAll st l = .ok r ∧ r.1.Ok ∧ st.tokens <+: r.1.tokens ∧ r.2.1.length = l.length ∧
      r.2.2.length = l.length ∧
      (∀ (j : Nat) (a : List Nat) (m : List (List Nat)) (ws : List Tok), r.2.1[j]? = some a → r.2.2[j]? = some m → W[j]? = some ws → Shows r.1.tokens a m ws) ∧
      ∀ u ∈ r.1.tokens, u ∈ st.tokens ∨ ∃ ws ∈ W, u ∈ ws) ∨
    (tokenizeAll st l = .throw ∧ ∃ s ∈ l, ∀ ws, ¬ Words s ws)
  | [], st, h => Or.inl ⟨[], _, .nil, rfl, h, List.prefix_rfl, rfl, rfl, by simp, fun u hu => Or.inl hu⟩
  | s :: l, st, h => by
    rw [tokenizeAll]
    rcases tokenize_ok h s with ⟨ws, r, a1, a2, a3, a4, a5, a6⟩ | ⟨a1, a2⟩
    · rw [a2]
      rcases tokenizeAll_ok l a3 with ⟨W, q, b1, b2, b3, b4, b5, b6, b7, b8⟩ | ⟨b1, b2⟩
      · left
        rw [Res.ok_bind, b2]
        refine ⟨ws :: W, _, .cons a1 b1, rfl, b3, a4.trans b4, by simp [b5], by simp [b6], ?_, ?_⟩
        · intro j a m w ha hm hw
          cases j with
          | zero =>
            simp only [List.getElem?_cons_zero, Option.some.injEq] at ha hm hw
            subst ha hm hw
            exact a5.mono b4
          | succ j =>
            simp only [List.getElem?_cons_succ] at ha hm hw
            exact b7 j a m w ha hm hw
        · intro u hu
          rcases b8 u hu with e | ⟨w, hw, e⟩
          · rcases a6 u e with e | e
            · exact Or.inl e
            · exact Or.inr ⟨ws, by simp, e⟩
          · exact Or.inr ⟨w, by simp [hw], e⟩
      · right
        rw [Res.ok_bind, b1]
        obtain ⟨t, ht, e⟩ := b2
        exact ⟨rfl, t, by simp [ht], e⟩
    · right
      rw [a1]
      exact ⟨rfl, s, by simp, a2⟩

/-! ## Back to the string -/

theorem size_fold (N : Nat) : ∀ (p : List Nat) (n : Nat), (∀ q ∈ p, q < N) → n ≤ N →
    p.foldl (fun n q => if n ≤ q then q + 1 else n) n ≤ N ∧ n ≤ p.foldl (fun n q => if n ≤ q then q + 1 else n) n ∧
      ∀ q ∈ p, q < p.foldl (fun n q => if n ≤ q then q + 1 else n) n
  | [], n, _, hn => ⟨hn, le_rfl, by simp⟩
  | q :: p, n, h, hn => by
    have hq := h q (by simp)
    have := size_fold N p (if n ≤ q then q + 1 else n) (fun x hx => h x (by simp [hx])) (by split <;> omega)
    rw [List.foldl_cons]
    have e : n ≤ (if n ≤ q then q + 1 else n) ∧ q < (if n ≤ q then q + 1 else n) := by split <;> omega
    refine ⟨this.1, e.1.trans this.2.1, ?_⟩
    · intro x hx
      rcases List.mem_cons.1 hx with rfl | hx
      · exact lt_of_lt_of_le e.2 this.2.1
      · exact this.2.2 x hx

theorem size_fold2 (N : Nat) : ∀ (m : List (List Nat)) (n : Nat), (∀ p ∈ m, ∀ q ∈ p, q < N) → n ≤ N →
    m.foldl (fun n p => p.foldl (fun n q => if n ≤ q then q + 1 else n) n) n ≤ N ∧
      n ≤ m.foldl (fun n p => p.foldl (fun n q => if n ≤ q then q + 1 else n) n) n ∧
      ∀ p ∈ m, ∀ q ∈ p, q < m.foldl (fun n p => p.foldl (fun n q => if n ≤ q then q + 1 else n) n) n
  | [], n, _, hn => ⟨hn, le_rfl, by simp⟩
  | p :: m, n, h, hn => by
    have a := size_fold N p n (fun q hq => h p (by simp) q hq) hn
    have b := size_fold2 N m _ (fun x hx => h x (by simp [hx])) a.1
    rw [List.foldl_cons]
    refine ⟨b.1, a.2.1.trans b.2.1, fun x hx q hq => ?_⟩
    rcases List.mem_cons.1 hx with rfl | hx
    · exact lt_of_lt_of_le (a.2.2 q hq) b.2.1
    · exact b.2.2 x hx q hq

theorem fill_one {a : List Nat} {i x : Nat} (h : a[i]? = some x) : ∀ (p r : List Nat),
    Res.forM p r (fun r q => match a[i]? with | none => Res.ub | some x => .ok (r.set q x)) = .ok (setIds r p x)
  | [], r => rfl
  | q :: p, r => by
    rw [Res.forM_cons, h, Res.ok_bind, ← h]
    exact fill_one h p _

theorem setIds_length (v : List Nat) (id : Nat) (r : List Nat) : (setIds r v id).length = r.length := by
  unfold setIds
  induction v generalizing r with
  | nil => rfl
  | cons q v ih => rw [List.foldl_cons, ih, List.length_set]

theorem unpack_ok {tokens : List Tok} (hn : tokens.Nodup) {a : List Nat} {m : List (List Nat)} {ws : List Tok}
    (h : Shows tokens a m ws) : ∃ u, unpack a m = .ok u ∧ u.length = ws.length ∧
      ∀ (q : Nat) (t : Tok), ws[q]? = some t → ∃ id : Nat, u[q]? = some id ∧ tokens[id]? = some t := by
  unfold unpack
  have hbound : ∀ p ∈ m, ∀ q ∈ p, q < ws.length := fun p hp q hq => by
    obtain ⟨i, hlt, e⟩ := List.mem_iff_getElem.1 hp
    have hlt' : i < a.length := h.same ▸ hlt
    obtain ⟨t, _, e2⟩ := h.place i a[i] p (List.getElem?_eq_getElem hlt') (by rw [← e]; exact List.getElem?_eq_getElem hlt)
    rw [e2] at hq
    exact (List.getElem?_eq_some_iff.1 (mem_positions.1 hq)).1
  have hcov : ∀ q < ws.length, ∃ (i : Nat) (id : Nat) (p : List Nat), a[i]? = some id ∧ m[i]? = some p ∧ q ∈ p ∧ tokens[id]? = ws[q]? := by
    intro q hq
    obtain ⟨id, hid, e⟩ := h.cover ws[q] (List.getElem_mem hq)
    obtain ⟨i, hlt, e1⟩ := List.mem_iff_getElem.1 hid
    have hlt' : i < m.length := h.same ▸ hlt
    have ha : a[i]? = some id := by rw [← e1]; exact List.getElem?_eq_getElem hlt
    obtain ⟨t, e2, e3⟩ := h.place i id m[i] ha (List.getElem?_eq_getElem hlt')
    refine ⟨i, id, m[i], ha, List.getElem?_eq_getElem hlt', ?_, by rw [e, List.getElem?_eq_getElem hq]⟩
    rw [e3, mem_positions, List.getElem?_eq_getElem hq, ← e, e2]
  have hsize : m.foldl (fun n p => p.foldl (fun n q => if n ≤ q then q + 1 else n) n) 0 = ws.length := by
    obtain ⟨h1, _, h3⟩ := size_fold2 ws.length m 0 hbound (Nat.zero_le _)
    apply Nat.le_antisymm h1
    by_contra hlt
    obtain ⟨i, id, p, _, e2, e3, _⟩ := hcov (ws.length - 1) (by omega)
    have := h3 p (List.mem_of_getElem? e2) _ e3
    omega
  simp only [hsize]
  have key : ∀ k ≤ m.length, ∃ u, Res.forM (List.range k) (List.replicate ws.length 0) (fun r i =>
      Res.forM (m.getD i []) r fun r q => match a[i]? with | none => Res.ub | some x => .ok (r.set q x)) = .ok u ∧
      u.length = ws.length ∧ ∀ i < k, ∀ id p q, a[i]? = some id → m[i]? = some p → q ∈ p → u[q]? = some id := by
    intro k hk
    induction k with
    | zero => exact ⟨_, rfl, by simp, by simp⟩
    | succ k ih =>
      obtain ⟨u, e1, e2, e3⟩ := ih (by omega)
      have hka : k < a.length := by rw [h.same]; omega
      have hak : a[k]? = some a[k] := List.getElem?_eq_getElem hka
      have hmk : m[k]? = some m[k] := List.getElem?_eq_getElem (by omega)
      have hget : m.getD k [] = m[k] := by rw [List.getD_eq_getElem?_getD, hmk]; rfl
      refine ⟨setIds u m[k] a[k], ?_, by rw [setIds_length, e2], ?_⟩
      · rw [List.range_succ, Res.forM_append, e1, Res.ok_bind, Res.forM_cons, hget, fill_one hak]
        rfl
      · intro i hi id p q ha hm hq
        rw [setIds_getElem?]
        by_cases hik : i = k
        · subst hik
          rw [hak] at ha; rw [hmk] at hm
          cases ha; cases hm
          have : q < u.length := by rw [e2]; exact hbound _ (List.getElem_mem _) q hq
          rw [if_pos hq, List.getElem?_eq_getElem this]; rfl
        · rw [if_neg, e3 i (by omega) id p q ha hm hq]
          intro hqk
          obtain ⟨t, t1, t2⟩ := h.place i id p ha hm
          obtain ⟨t', t1', t2'⟩ := h.place k a[k] m[k] hak hmk
          rw [t2, mem_positions] at hq
          rw [t2', mem_positions, hq] at hqk
          cases hqk
          have hid := nodup_getElem? hn t1 t1'
          rw [hid] at ha
          exact hik (nodup_getElem? h.nodup ha hak)
  obtain ⟨u, e1, e2, e3⟩ := key m.length le_rfl
  refine ⟨u, e1, e2, fun q t hq => ?_⟩
  obtain ⟨i, id, p, h1, h2, h3, h4⟩ := hcov q (List.getElem?_eq_some_iff.1 hq).1
  exact ⟨id, e3 i (List.getElem?_eq_some_iff.1 h2).1 id p q h1 h2 h3, by rw [h4, hq]⟩

/-! ## What the tokens are used for -/

/-- Two characters, the first is `c`. -/
def isC (t : Tok) : Prop := t.length = 2 ∧ t.head? = some 'c'

instance (t : Tok) : Decidable (isC t) := by unfold isC; infer_instance

theorem mem_occ {args : List (List Nat)} {i j : Nat} : j ∈ occ args i ↔ ∃ a, args[j]? = some a ∧ i ∈ a := by
  simp only [occ, List.mem_filter, List.mem_range, decide_eq_true_eq, List.getD_eq_getElem?_getD]
  constructor
  · rintro ⟨h1, h2⟩
    rw [List.getElem?_eq_getElem h1] at h2
    exact ⟨_, List.getElem?_eq_getElem h1, h2⟩
  · rintro ⟨a, h1, h2⟩
    exact ⟨(List.getElem?_eq_some_iff.1 h1).1, by rw [h1]; exact h2⟩

theorem occ_sorted (args : List (List Nat)) (i : Nat) : (occ args i).Pairwise (· < ·) := List.Pairwise.filter _ List.pairwise_lt_range

theorem find_ok {args : List (List Nat)} {i j : Nat} (h : j ∈ occ args i) :
    find (args.getD j []) i = .ok ((args.getD j []).idxOf i) := by
  obtain ⟨a, h1, h2⟩ := mem_occ.1 h
  rw [find, if_pos (by rw [List.getD_eq_getElem?_getD, h1]; exact h2)]

theorem pairsOf_ok {args : List (List Nat)} {i : Nat} : ∀ (l : List Nat), (∀ j ∈ l, j ∈ occ args i) →
    pairsOf args i l = .ok (l.map fun j => (j, (args.getD j []).idxOf i))
  | [], _ => rfl
  | j :: l, h => by
    rw [pairsOf, find_ok (h j (by simp)), Res.ok_bind, pairsOf_ok l (fun k hk => h k (by simp [hk])), Res.ok_bind]
    rfl

/-- Token `i` is summed out of the only operand that has it. -/
def pS (args : List (List Nat)) (i : Nat) : Prop := (occ args i).length = 1

/-- Token `i` is in the result and elsewhere and is named as one of a convolution. -/
def pX (args : List (List Nat)) (tokens : List Tok) (i : Nat) : Prop := 2 ≤ (occ args i).length ∧ 0 ∈ occ args i ∧ isC (tokens.getD i [])

/-- Token `i` is in the result and elsewhere. -/
def pT (args : List (List Nat)) (tokens : List Tok) (i : Nat) : Prop := 2 ≤ (occ args i).length ∧ 0 ∈ occ args i ∧ ¬ isC (tokens.getD i [])

/-- Token `i` is in several operands and not in the result. -/
def pC (args : List (List Nat)) (i : Nat) : Prop := 2 ≤ (occ args i).length ∧ 0 ∉ occ args i

instance (args : List (List Nat)) (i : Nat) : Decidable (pS args i) := by unfold pS; infer_instance
instance (args : List (List Nat)) (tokens : List Tok) (i : Nat) : Decidable (pX args tokens i) := by unfold pX; infer_instance
instance (args : List (List Nat)) (tokens : List Tok) (i : Nat) : Decidable (pT args tokens i) := by unfold pT; infer_instance
instance (args : List (List Nat)) (i : Nat) : Decidable (pC args i) := by unfold pC; infer_instance

theorem classify_eq (f : Form) (i : Nat) (ho : f.occurrences.getD i [] = occ f.args i) (hne : occ f.args i ≠ []) :
    (∃ j, occ f.args i = [j] ∧ pS f.args i ∧
      classify f i = .ok { f with summations := f.summations.modify j (· ++ [(f.args.getD j []).idxOf i]) }) ∨
    (pX f.args f.tokens i ∧ (occ f.args i).length = 3 ∧ classify f i = .ok { f with convolution := f.convolution ++ [i] }) ∨
    (pX f.args f.tokens i ∧ (occ f.args i).length ≠ 3 ∧ classify f i = .throw) ∨
    (pT f.args f.tokens i ∧
      classify f i = .ok { f with transfers := f.transfers ++ [(occ f.args i).map fun j => (j, (f.args.getD j []).idxOf i)] }) ∨
    (pC f.args i ∧ classify f i = .ok { f with contraction := f.contraction ++ [i] }) := by
  unfold classify
  rw [ho]
  have hs := occ_sorted f.args i
  have hf : ∀ j ∈ occ f.args i, find (f.args.getD j []) i = .ok ((f.args.getD j []).idxOf i) := fun j hj => find_ok hj
  have hp := pairsOf_ok (occ f.args i) (fun _ h => h)
  unfold pS pX pT pC
  rcases e : occ f.args i with _ | ⟨j, _ | ⟨k, l⟩⟩
  · exact absurd e hne
  · left
    refine ⟨j, rfl, rfl, ?_⟩
    dsimp only
    rw [hf j (by rw [e]; simp)]
    rfl
  · rw [e] at hs hp
    right
    cases j with
    | zero =>
      by_cases hc : isC (f.tokens.getD i [])
      · by_cases h3 : (k :: l).length + 1 = 3
        · left
          refine ⟨⟨by simp, by simp, hc⟩, by simpa using h3, ?_⟩
          show (if isC (f.tokens.getD i []) then _ else _) = _
          rw [if_pos hc, decide_eq_true h3]; rfl
        · right; left
          refine ⟨⟨by simp, by simp, hc⟩, by simpa using h3, ?_⟩
          show (if isC (f.tokens.getD i []) then _ else _) = _
          rw [if_pos hc, decide_eq_false h3]; rfl
      · right; right; left
        refine ⟨⟨by simp, by simp, hc⟩, ?_⟩
        show (if isC (f.tokens.getD i []) then _ else _) = _
        rw [if_neg hc, hp]
        rfl
    | succ j =>
      right; right; right
      refine ⟨⟨by simp, ?_⟩, rfl⟩
      intro h0
      rcases List.mem_cons.1 h0 with h | h
      · cases h
      · exact absurd ((List.pairwise_cons.1 hs).1 0 h) (by omega)

/-- The state after the tokens of `L`. -/
structure Sorting (f : Form) (L : List Nat) (g : Form) : Prop where
  tokens : g.tokens = f.tokens
  args : g.args = f.args
  places : g.places = f.places
  occurrences : g.occurrences = f.occurrences
  contraction : g.contraction = f.contraction ++ L.filter fun i => decide (pC f.args i)
  convolution : g.convolution = f.convolution ++ L.filter fun i => decide (pX f.args f.tokens i)
  transfers : g.transfers = f.transfers ++
    (L.filter fun i => decide (pT f.args f.tokens i)).map fun i => (occ f.args i).map fun j => (j, (f.args.getD j []).idxOf i)
  len : g.summations.length = f.summations.length
  summations : ∀ j, g.summations[j]? = f.summations[j]?.map
    (· ++ (L.filter fun i => decide (occ f.args i = [j])).map fun i => (f.args.getD j []).idxOf i)

theorem sorted_ok : ∀ (L : List Nat) (f : Form), (∀ i ∈ L, f.occurrences.getD i [] = occ f.args i) → (∀ i ∈ L, occ f.args i ≠ []) →
    (∃ g, Res.forM L f classify = .ok g ∧ Sorting f L g ∧ ∀ i ∈ L, pX f.args f.tokens i → (occ f.args i).length = 3) ∨
    (Res.forM L f classify = .throw ∧ ∃ i ∈ L, pX f.args f.tokens i ∧ (occ f.args i).length ≠ 3)
  | [], f, _, _ => Or.inl ⟨f, rfl, ⟨rfl, rfl, rfl, rfl, by simp, by simp, by simp, rfl, fun j => by simp⟩, by simp⟩
  | i :: L, f, ho, hne => by
    have hoi := ho i (by simp)
    have hni := hne i (by simp)
    rw [Res.forM_cons]
    have step : ∀ g : Form, g.args = f.args → g.occurrences = f.occurrences →
        (∃ g', Res.forM L g classify = .ok g' ∧ Sorting g L g' ∧ ∀ i ∈ L, pX g.args g.tokens i → (occ g.args i).length = 3) ∨
        (Res.forM L g classify = .throw ∧ ∃ i ∈ L, pX g.args g.tokens i ∧ (occ g.args i).length ≠ 3) := fun g ha hoc =>
      sorted_ok L g (fun k hk => by rw [ha, hoc]; exact ho k (by simp [hk])) (fun k hk => by rw [ha]; exact hne k (by simp [hk]))
    rcases classify_eq f i hoi hni with ⟨j, ej, hS, e⟩ | ⟨hX, h3, e⟩ | ⟨hX, h3, e⟩ | ⟨hT, e⟩ | ⟨hC, e⟩
    · rw [e, Res.ok_bind]
      have nX : ¬ pX f.args f.tokens i := by unfold pX; unfold pS at hS; omega
      have nT : ¬ pT f.args f.tokens i := by unfold pT; unfold pS at hS; omega
      have nC : ¬ pC f.args i := by unfold pC; unfold pS at hS; omega
      rcases step { f with summations := f.summations.modify j (· ++ [(f.args.getD j []).idxOf i]) } rfl rfl with ⟨g, h1, h2, h4⟩ | ⟨h1, k, hk, h2⟩
      · left
        refine ⟨g, h1, ⟨h2.tokens, h2.args, h2.places, h2.occurrences, ?_, ?_, ?_, ?_, ?_⟩, ?_⟩
        · rw [h2.contraction]; simp [nC]
        · rw [h2.convolution]; simp [nX]
        · rw [h2.transfers]; simp [nT]
        · rw [h2.len]; simp
        · intro k
          rw [h2.summations]
          by_cases hkj : k = j
          · subst hkj
            simp only [List.getElem?_modify, List.filter_cons, ej]
            cases f.summations[k]? <;> simp
          · have : ¬ j = k := fun h => hkj h.symm
            simp [List.getElem?_modify, List.filter_cons, ej, this]
        · intro k hk hx
          rcases List.mem_cons.1 hk with rfl | hk
          · exact absurd hx nX
          · exact h4 k hk hx
      · exact Or.inr ⟨h1, k, by simp [hk], h2⟩
    · rw [e, Res.ok_bind]
      have nS : ∀ j, ¬ occ f.args i = [j] := fun j hj => by rw [hj] at h3; simp at h3
      have nT : ¬ pT f.args f.tokens i := fun h => h.2.2 hX.2.2
      have nC : ¬ pC f.args i := fun h => h.2 hX.2.1
      rcases step { f with convolution := f.convolution ++ [i] } rfl rfl with ⟨g, h1, h2, h4⟩ | ⟨h1, k, hk, h2⟩
      · left
        refine ⟨g, h1, ⟨h2.tokens, h2.args, h2.places, h2.occurrences, ?_, ?_, ?_, ?_, ?_⟩, ?_⟩
        · rw [h2.contraction]; simp [nC]
        · rw [h2.convolution]; simp [hX]
        · rw [h2.transfers]; simp [nT]
        · rw [h2.len]
        · intro k; rw [h2.summations]; simp [nS]
        · intro k hk hx
          rcases List.mem_cons.1 hk with rfl | hk
          · exact h3
          · exact h4 k hk hx
      · exact Or.inr ⟨h1, k, by simp [hk], h2⟩
    · rw [e]
      exact Or.inr ⟨rfl, i, by simp, hX, h3⟩
    · rw [e, Res.ok_bind]
      have nS : ∀ j, ¬ occ f.args i = [j] := fun j hj => by have := hT.1; rw [hj] at this; simp at this
      have nX : ¬ pX f.args f.tokens i := fun h => hT.2.2 h.2.2
      have nC : ¬ pC f.args i := fun h => h.2 hT.2.1
      rcases step { f with transfers := f.transfers ++ [(occ f.args i).map fun j => (j, (f.args.getD j []).idxOf i)] } rfl rfl with ⟨g, h1, h2, h4⟩ | ⟨h1, k, hk, h2⟩
      · left
        refine ⟨g, h1, ⟨h2.tokens, h2.args, h2.places, h2.occurrences, ?_, ?_, ?_, ?_, ?_⟩, ?_⟩
        · rw [h2.contraction]; simp [nC]
        · rw [h2.convolution]; simp [nX]
        · rw [h2.transfers]; simp [hT]
        · rw [h2.len]
        · intro k; rw [h2.summations]; simp [nS]
        · intro k hk hx
          rcases List.mem_cons.1 hk with rfl | hk
          · exact absurd hx nX
          · exact h4 k hk hx
      · exact Or.inr ⟨h1, k, by simp [hk], h2⟩
    · rw [e, Res.ok_bind]
      have nS : ∀ j, ¬ occ f.args i = [j] := fun j hj => by have := hC.1; rw [hj] at this; simp at this
      have nX : ¬ pX f.args f.tokens i := fun h => hC.2 h.2.1
      have nT : ¬ pT f.args f.tokens i := fun h => hC.2 h.2.1
      rcases step { f with contraction := f.contraction ++ [i] } rfl rfl with ⟨g, h1, h2, h4⟩ | ⟨h1, k, hk, h2⟩
      · left
        refine ⟨g, h1, ⟨h2.tokens, h2.args, h2.places, h2.occurrences, ?_, ?_, ?_, ?_, ?_⟩, ?_⟩
        · rw [h2.contraction]; simp [hC]
        · rw [h2.convolution]; simp [nX]
        · rw [h2.transfers]; simp [nT]
        · rw [h2.len]
        · intro k; rw [h2.summations]; simp [nS]
        · intro k hk hx
          rcases List.mem_cons.1 hk with rfl | hk
          · exact absurd hx nX
          · exact h4 k hk hx
      · exact Or.inr ⟨h1, k, by simp [hk], h2⟩

/-! ## The whole form -/

theorem occ_length (args : List (List Nat)) (i : Nat) : (occ args i).length = args.countP fun a => decide (i ∈ a) := by
  have e : args = (List.range args.length).map fun j => args.getD j [] := by
    apply List.ext_getElem (by simp)
    intro j h1 h2
    simp [List.getD_eq_getElem?_getD, List.getElem?_eq_getElem h1]
  conv => rhs; rw [e, List.countP_map, List.countP_eq_length_filter]
  rfl

theorem Words.unique {s : List Char} {ws ws' : List Tok} (h : Words s ws) (h' : Words s ws') : ws = ws' := by
  induction h generalizing ws' with
  | nil => cases h'; rfl
  | char c s ws hc hs ih =>
    generalize hq : c :: s = q at h'
    cases h' with
    | nil => cases hq
    | char c' s' ws1 h1 h2 => cases hq; rw [ih h2]
    | group w1 s1 ws1 h1 h2 => exact absurd (List.cons.inj hq).1 hc
  | group w s ws hw hs ih =>
    generalize hq : '(' :: (w ++ ')' :: s) = q at h'
    cases h' with
    | nil => cases hq
    | char c' s' ws1 h1 h2 => exact absurd (List.cons.inj hq).1.symm h1
    | group w1 s1 ws1 h1 h2 =>
      have e := (List.cons.inj hq).2
      have t1 := take_group (s := s) hw
      rw [e] at t1
      have t2 := take_group (s := s1) h1
      have ew : w1 = w := t2.1.symm.trans t1.1
      have es : s1 = s := t2.2.symm.trans t1.2
      subst ew es
      rw [ih h2]

/-- What the fields of a form that was read are, `W` being the tokens of the result and of the operands. -/
structure Good (f : Form) (W : List (List Tok)) : Prop where
  tokens : f.tokens.Nodup
  named : ∀ t, t ∈ f.tokens ↔ ∃ ws ∈ W, t ∈ ws
  lenA : f.args.length = W.length
  lenP : f.places.length = W.length
  shows_ : ∀ (j : Nat) (a : List Nat) (m : List (List Nat)) (ws : List Tok), f.args[j]? = some a → f.places[j]? = some m →
    W[j]? = some ws → Shows f.tokens a m ws
  occurrences : f.occurrences = (List.range f.tokens.length).map (occ f.args)
  contraction : f.contraction = (List.range f.tokens.length).filter fun i => decide (pC f.args i)
  convolution : f.convolution = (List.range f.tokens.length).filter fun i => decide (pX f.args f.tokens i)
  transfers : f.transfers = ((List.range f.tokens.length).filter fun i => decide (pT f.args f.tokens i)).map
    fun i => (occ f.args i).map fun j => (j, (f.args.getD j []).idxOf i)
  lenS : f.summations.length = W.length
  summations : ∀ j < W.length, f.summations[j]? =
    some (((List.range f.tokens.length).filter fun i => decide (occ f.args i = [j])).map fun i => (f.args.getD j []).idxOf i)
  three : ∀ i < f.tokens.length, pX f.args f.tokens i → (occ f.args i).length = 3

theorem Shows.mem_iff {tokens : List Tok} {a : List Nat} {m : List (List Nat)} {ws : List Tok} (h : Shows tokens a m ws)
    (hn : tokens.Nodup) {i : Nat} {t : Tok} (ht : tokens[i]? = some t) : i ∈ a ↔ t ∈ ws := by
  constructor
  · intro hi
    obtain ⟨t', h1, h2⟩ := h.into i hi
    rw [ht] at h2
    cases h2; exact h1
  · intro hi
    obtain ⟨id, h1, h2⟩ := h.cover t hi
    rw [nodup_getElem? hn ht h2]; exact h1

theorem countP_zip {α β : Type} (p : α → Bool) (q : β → Bool) : ∀ (l : List α) (k : List β), l.length = k.length →
    (∀ (j : Nat) (a : α) (b : β), l[j]? = some a → k[j]? = some b → p a = q b) → l.countP p = k.countP q
  | [], [], _, _ => rfl
  | a :: l, b :: k, hl, h => by
    have h0 := h 0 a b rfl rfl
    have := countP_zip p q l k (by simpa using hl) (fun j x y h1 h2 => h (j + 1) x y (by simpa using h1) (by simpa using h2))
    rw [List.countP_cons, List.countP_cons, this, h0]

/-- Tokens and operands, when only the numbering is known. -/
theorem occ_words {tokens : List Tok} {args : List (List Nat)} {places : List (List (List Nat))} {W : List (List Tok)} (hn : tokens.Nodup)
    (hA : args.length = W.length) (hP : places.length = W.length)
    (hs : ∀ (j : Nat) (a : List Nat) (m : List (List Nat)) (ws : List Tok), args[j]? = some a → places[j]? = some m → W[j]? = some ws →
      Shows tokens a m ws) {i : Nat} {t : Tok} (ht : tokens[i]? = some t) :
    (occ args i).length = W.countP (fun ws => decide (t ∈ ws)) ∧ (0 ∈ occ args i ↔ t ∈ W.headD []) ∧
      ∀ (j : Nat) (ws : List Tok), W[j]? = some ws → (j ∈ occ args i ↔ t ∈ ws) := by
  have key : ∀ (j : Nat) (a : List Nat) (ws : List Tok), args[j]? = some a → W[j]? = some ws → (i ∈ a ↔ t ∈ ws) := by
    intro j a ws ha hw
    have hj : j < places.length := by rw [hP, ← hA]; exact (List.getElem?_eq_some_iff.1 ha).1
    exact (hs j a _ ws ha (List.getElem?_eq_getElem hj) hw).mem_iff hn ht
  have key2 : ∀ (j : Nat) (ws : List Tok), W[j]? = some ws → (j ∈ occ args i ↔ t ∈ ws) := by
    intro j ws hw
    have hj : j < args.length := by rw [hA]; exact (List.getElem?_eq_some_iff.1 hw).1
    rw [mem_occ, ← key j _ ws (List.getElem?_eq_getElem hj) hw]
    constructor
    · rintro ⟨a, h1, h2⟩
      rw [List.getElem?_eq_getElem hj] at h1
      cases h1; exact h2
    · intro h; exact ⟨_, List.getElem?_eq_getElem hj, h⟩
  refine ⟨?_, ?_, key2⟩
  · rw [occ_length]
    refine countP_zip _ _ _ _ hA fun j a b ha hb => ?_
    rw [decide_eq_decide]
    exact key j a b ha hb
  · cases hW : W with
    | nil =>
      rw [mem_occ]
      have : args = [] := List.length_eq_zero_iff.1 (by rw [hA, hW]; rfl)
      simp [this]
    | cons w W' => exact key2 0 w (by rw [hW]; rfl)

/-- The outcomes of reading an einsum string. -/
theorem form_spec (s : List Char) :
    (arrow s = none ∧ form s = .throw) ∨
    ∃ lhs rhs, arrow s = some (lhs, rhs) ∧
      ((form s = .throw ∧ ∃ str ∈ rhs :: pieces lhs.length lhs, ∀ ws, ¬ Words str ws) ∨
       ∃ W, List.Forall₂ Words (rhs :: pieces lhs.length lhs) W ∧
        ((form s = .throw ∧ ∃ t ∈ W.headD [], isC t ∧ 2 ≤ W.countP (fun ws => decide (t ∈ ws)) ∧ W.countP (fun ws => decide (t ∈ ws)) ≠ 3) ∨
         ∃ f, form s = .ok f ∧ Good f W)) := by
  unfold form
  cases ha : arrow s with
  | none => exact Or.inl ⟨rfl, rfl⟩
  | some p =>
    obtain ⟨lhs, rhs⟩ := p
    right
    refine ⟨lhs, rhs, rfl, ?_⟩
    dsimp only
    generalize hl : rhs :: pieces lhs.length lhs = l
    rcases tokenizeAll_ok l Names.ok_nil with ⟨W, r, a1, a2, a3, a4, a5, a6, a7, a8⟩ | ⟨a1, a2⟩
    · right
      refine ⟨W, a1, ?_⟩
      rw [a2, Res.ok_bind]
      have hlW := a1.length_eq
      have hA : r.2.1.length = W.length := a5.trans hlW
      have hP : r.2.2.length = W.length := a6.trans hlW
      have hocc := fun {i : Nat} {t : Tok} (ht : r.1.tokens[i]? = some t) => occ_words a3.nodup hA hP a7 ht
      have hnamed : ∀ t, t ∈ r.1.tokens ↔ ∃ ws ∈ W, t ∈ ws := by
        intro t
        constructor
        · intro h
          rcases a8 t h with e | e
          · cases e
          · exact e
        · rintro ⟨ws, h1, h2⟩
          obtain ⟨j, hj, e⟩ := List.mem_iff_getElem.1 h1
          obtain ⟨id, _, e2⟩ := (a7 j r.2.1[j] r.2.2[j] ws (List.getElem?_eq_getElem (by omega)) (List.getElem?_eq_getElem (by omega))
            (by rw [← e]; exact List.getElem?_eq_getElem hj)).cover t h2
          exact List.mem_of_getElem? e2
      have := sorted_ok (List.range r.1.tokens.length)
        ⟨r.1.tokens, r.2.1, r.2.2, (List.range r.1.tokens.length).map (occ r.2.1), r.2.1.map fun _ => [], [], [], []⟩
        (fun i hi => by
          rw [List.mem_range] at hi
          simp [List.getD_eq_getElem?_getD, hi])
        (fun i hi => by
          rw [List.mem_range] at hi
          have ht := List.getElem?_eq_getElem hi
          obtain ⟨ws, h1, h2⟩ := (hnamed _).1 (List.getElem_mem hi)
          obtain ⟨j, hj⟩ := List.mem_iff_getElem?.1 h1
          exact List.ne_nil_of_mem (((hocc ht).2.2 j ws hj).2 h2))
      rcases this with ⟨g, h1, h2, h3⟩ | ⟨h1, i, hi, h2, h3⟩
      · right
        refine ⟨g, h1, ?_⟩
        have e1 : g.tokens = r.1.tokens := h2.tokens
        have e2 : g.args = r.2.1 := h2.args
        have e3 : g.places = r.2.2 := h2.places
        constructor
        · rw [e1]; exact a3.nodup
        · rw [e1]; exact hnamed
        · rw [e2]; exact hA
        · rw [e3]; exact hP
        · rw [e1, e2, e3]; exact a7
        · rw [e1, e2]; exact h2.occurrences
        · rw [e1, e2]; simpa using h2.contraction
        · rw [e1, e2]; simpa using h2.convolution
        · rw [e1, e2]; simpa using h2.transfers
        · rw [h2.len]; simpa using hA
        · intro j hj
          rw [h2.summations, e1, e2]
          simp [show j < r.2.1.length by omega]
        · rw [e1, e2]
          intro i hi hx
          exact h3 i (List.mem_range.2 hi) hx
      · left
        rw [List.mem_range] at hi
        have ht := List.getElem?_eq_getElem hi
        obtain ⟨b1, b2, b3⟩ := hocc ht
        have hget : r.1.tokens.getD i [] = r.1.tokens[i] := by rw [List.getD_eq_getElem?_getD, ht]; rfl
        refine ⟨h1, r.1.tokens[i], b2.1 h2.2.1, ?_, ?_, ?_⟩
        · have := h2.2.2
          rw [hget] at this; exact this
        · rw [← b1]; exact h2.1
        · rw [← b1]; exact h3
    · left
      rw [a1]
      exact ⟨rfl, a2⟩

end CT
end Cnine
