import Verif.Model.Json
import Mathlib.Data.List.Forall2
import Mathlib.Tactic.IntervalCases

/-! # C76 values kept in a configuration object; C157, C158 printing and parsing -/

namespace Cnine
namespace Js

/-! ### Positions in a string -/

theorem find_app (p : Char → Bool) (A R : Str) : find p (A ++ R) A.length = (R.findIdx? p).map (· + A.length) := by
  simp [find]

theorem findIdx_at (p : Char → Bool) {B : Str} (hB : ∀ b ∈ B, p b = false) {c : Char} (hc : p c = true) (C : Str) :
    (B ++ c :: C).findIdx? p = some B.length := by
  induction B with
  | nil => simp [List.findIdx?_cons, hc]
  | cons b B ih =>
    rw [List.cons_append, List.findIdx?_cons, if_neg (by simp [hB b (List.mem_cons_self ..)]),
      ih fun x hx => hB x (List.mem_cons_of_mem _ hx)]
    simp

theorem findIdx_none (p : Char → Bool) {B : Str} (hB : ∀ b ∈ B, p b = false) : B.findIdx? p = none := by
  rw [List.findIdx?_eq_none_iff]
  exact hB

theorem find_at (p : Char → Bool) (A : Str) {B : Str} (hB : ∀ b ∈ B, p b = false) {c : Char} (hc : p c = true) (C : Str) :
    find p (A ++ (B ++ c :: C)) A.length = some (A.length + B.length) := by
  rw [find_app, findIdx_at p hB hc]
  simp [Nat.add_comm]

theorem find_not (p : Char → Bool) (A : Str) {B : Str} (hB : ∀ b ∈ B, p b = false) : find p (A ++ B) A.length = none := by
  rw [find_app, findIdx_none p hB]; rfl

theorem sub_mid (A T C : Str) : sub (A ++ (T ++ C)) A.length (A.length + T.length) = T := by
  simp [sub]

theorem get_app (A : Str) (c : Char) (C : Str) : (A ++ c :: C)[A.length]? = some c := by simp

/-! ### Terms -/

/-- A text without separators. -/
def Atom (T : Str) : Prop := T ≠ [] ∧ (∀ c ∈ T, delim c = false) ∧ T.head? ≠ some '"'

/-- A bracketed text whose closing bracket `end_of_clause` finds. -/
def Clause (T : Str) : Prop := (∃ B, T = '[' :: (B ++ [']'])) ∧
  ∀ A C n, T.length ≤ n → endClause (A ++ (T ++ C)) n A.length = .ok (some (A.length + T.length - 1))

/-- A quotation without quotes inside. -/
def Quoted (T : Str) : Prop := ∃ B, T = '"' :: (B ++ ['"']) ∧ ∀ c ∈ B, c ≠ '"'

theorem endTerm_eq (A : Str) (c : Char) (C : Str) (h : c ≠ '"') :
    endTerm (A ++ c :: C) A.length = termLoop (A ++ c :: C) ((A ++ c :: C).length + 1) (find delim (A ++ c :: C) A.length) := by
  simp only [endTerm]
  rw [show decide (A.length ≤ (A ++ c :: C).length) = true by simp, Res.need_true, Res.ok_bind, get_app, if_neg (by simpa using h)]

theorem termLoop_stop (x : Str) (n r : Nat) (h : x[r]? ≠ some '[') : termLoop x (n + 1) (some r) = .ok (some r) := by
  rw [termLoop, if_neg h]

theorem atom_end {T : Str} (h : Atom T) (A C : Str) (hC : ∀ c ∈ C, delim c = false) :
    endTerm (A ++ (T ++ C)) A.length = .ok none := by
  obtain ⟨h1, h2, h3⟩ := h
  obtain ⟨c, T, rfl⟩ := List.exists_cons_of_ne_nil h1
  rw [List.cons_append, endTerm_eq A c _ (by simpa using h3), ← List.cons_append, find_not delim A]
  · rfl
  · intro b hb
    rcases List.mem_append.1 hb with hb | hb
    · exact h2 b hb
    · exact hC b hb

theorem atom_comma {T : Str} (h : Atom T) (A D : Str) :
    endTerm (A ++ (T ++ ',' :: D)) A.length = .ok (some (A.length + T.length)) := by
  obtain ⟨h1, h2, h3⟩ := h
  obtain ⟨c, T, rfl⟩ := List.exists_cons_of_ne_nil h1
  rw [List.cons_append, endTerm_eq A c _ (by simpa using h3), ← List.cons_append, find_at delim A h2 (by decide)]
  rw [termLoop_stop]
  rw [← List.append_assoc, ← List.length_append, get_app]
  decide

theorem endClause_flat (A B C : Str) (hB : ∀ c ∈ B, brack c = false) (n : Nat) (hn : 2 ≤ n) :
    endClause (A ++ '[' :: (B ++ ']' :: C)) n A.length = .ok (some (A.length + 1 + B.length)) := by
  obtain ⟨n, rfl⟩ : ∃ k, n = k + 1 + 1 := ⟨n - 2, by omega⟩
  rw [endClause]
  have e : A ++ '[' :: (B ++ ']' :: C) = (A ++ ['[']) ++ (B ++ ']' :: C) := by simp
  rw [e, show A.length + 1 = (A ++ ['[']).length by simp, find_at brack _ hB (by decide), endClause.go, if_neg]
  rw [← List.append_assoc, ← List.length_append, get_app]
  decide

/-- A bracket around a text without brackets. -/
theorem clause_flat (B : Str) (hB : ∀ c ∈ B, brack c = false) : Clause ('[' :: (B ++ [']'])) := by
  refine ⟨⟨B, rfl⟩, fun A C n hn => ?_⟩
  have e : A ++ ('[' :: (B ++ [']']) ++ C) = A ++ '[' :: (B ++ ']' :: C) := by simp
  rw [e, endClause_flat A B C hB n (by simp at hn; omega)]
  congr 2
  simp
  omega

theorem joinC_cons (T : Str) {Ts : List Str} (h : Ts ≠ []) : joinC (T :: Ts) = T ++ ',' :: joinC Ts := by
  obtain ⟨U, Ts, rfl⟩ := List.exists_cons_of_ne_nil h
  rfl

/-- The loop of `end_of_clause` over inner clauses. -/
theorem go_clauses (Ts : List Str) (hT : ∀ T ∈ Ts, Clause T) : ∀ (A C : Str) (n : Nat), (joinC Ts).length + 1 ≤ n →
    endClause.go (A ++ (joinC Ts ++ ']' :: C)) n (find brack (A ++ (joinC Ts ++ ']' :: C)) A.length) =
      .ok (some (A.length + (joinC Ts).length)) := by
  induction Ts with
  | nil =>
    intro A C n hn
    obtain ⟨n, rfl⟩ : ∃ k, n = k + 1 := ⟨n - 1, by omega⟩
    rw [show find brack (A ++ (joinC [] ++ ']' :: C)) A.length = some A.length from find_at brack A (B := []) (by simp) (by decide) C,
      endClause.go, if_neg]
    · rfl
    · rw [show A ++ (joinC [] ++ ']' :: C) = A ++ ']' :: C from rfl, get_app]; decide
  | cons T Ts ih =>
    intro A C n hn
    obtain ⟨n, rfl⟩ : ∃ k, n = k + 1 := ⟨n - 1, by omega⟩
    obtain ⟨⟨B, hB⟩, hcl⟩ := hT T (List.mem_cons_self ..)
    obtain ⟨D, hD, hlen⟩ : ∃ D, joinC (T :: Ts) = T ++ D ∧ (D = [] ∧ Ts = [] ∨ D = ',' :: joinC Ts ∧ Ts ≠ []) := by
      by_cases h0 : Ts = []
      · subst h0; exact ⟨[], by simp [joinC], .inl ⟨rfl, rfl⟩⟩
      · exact ⟨_, joinC_cons T h0, .inr ⟨rfl, h0⟩⟩
    have hTl : 2 ≤ T.length := by rw [hB]; simp
    rw [hD, List.append_assoc]
    have hf : find brack (A ++ (T ++ (D ++ ']' :: C))) A.length = some A.length := by
      rw [hB]; exact find_at brack A (B := []) (by simp) (by decide) _
    rw [hf, endClause.go, if_pos (by rw [hB]; exact get_app A '[' _), hcl A _ n (by rw [hD] at hn; simp at hn; omega), Res.ok_bind]
    simp only
    rw [show A.length + T.length - 1 + 1 = (A ++ T).length by simp; omega, ← List.append_assoc A T]
    rcases hlen with ⟨rfl, rfl⟩ | ⟨rfl, hne⟩
    · have := ih (fun _ h => by simp at h) (A ++ T) C n (by simp [joinC] at hn ⊢; omega)
      simp only [joinC, List.nil_append, List.length_nil] at this ⊢
      rw [this]
      congr 2
      simp
    · have := ih (fun U hU => hT U (List.mem_cons_of_mem _ hU)) (A ++ T ++ [',']) C n (by rw [hD] at hn; simp at hn; omega)
      have hx : A ++ T ++ [','] ++ (joinC Ts ++ ']' :: C) = A ++ T ++ (',' :: joinC Ts ++ ']' :: C) := by simp
      rw [hx] at this
      have hfind : find brack (A ++ T ++ (',' :: joinC Ts ++ ']' :: C)) (A ++ T).length =
          find brack (A ++ T ++ (',' :: joinC Ts ++ ']' :: C)) (A ++ T ++ [',']).length := by
        rw [find_app, ← hx, find_app, List.cons_append, List.findIdx?_cons, if_neg (by decide)]
        cases (joinC Ts ++ ']' :: C).findIdx? brack with
        | none => rfl
        | some k => simp; omega
      rw [hfind, this]
      refine congrArg (fun n => Res.ok (some n)) ?_
      simp only [List.length_append, List.length_cons, List.length_nil]; omega

/-- A bracket around bracketed texts. -/
theorem clause_nest (Ts : List Str) (hT : ∀ T ∈ Ts, Clause T) : Clause ('[' :: (joinC Ts ++ [']'])) := by
  refine ⟨⟨_, rfl⟩, fun A C n hn => ?_⟩
  obtain ⟨n, rfl⟩ : ∃ k, n = k + 1 := ⟨n - 1, by simp at hn; omega⟩
  have := go_clauses Ts hT (A ++ ['[']) C n (by simp at hn; omega)
  have hx : A ++ ['['] ++ (joinC Ts ++ ']' :: C) = A ++ ('[' :: (joinC Ts ++ [']']) ++ C) := by simp
  rw [hx] at this
  rw [endClause, show A.length + 1 = (A ++ ['[']).length by simp, this]
  refine congrArg (fun n => Res.ok (some n)) ?_
  simp only [List.length_append, List.length_cons, List.length_nil]; omega

theorem clause_gen {T : Str} (h : Clause T) (A C : Str) :
    endTerm (A ++ (T ++ C)) A.length =
      termLoop (A ++ (T ++ C)) (A ++ (T ++ C)).length (find delim2 (A ++ (T ++ C)) (A.length + T.length - 1)) := by
  obtain ⟨⟨B, hB⟩, hcl⟩ := h
  have e : A ++ (T ++ C) = A ++ '[' :: (B ++ ']' :: C) := by simp [hB]
  rw [e, endTerm_eq A '[' _ (by decide), show find delim (A ++ '[' :: (B ++ ']' :: C)) A.length = some A.length from
    find_at delim A (B := []) (by simp) (by decide) _, termLoop, get_app, if_pos rfl, ← e, hcl A C _ (by simp; omega)]
  rfl

theorem clause_last (A B C : Str) : A ++ ('[' :: (B ++ [']']) ++ C) = (A ++ '[' :: B) ++ ']' :: C := by simp

theorem clause_end {T : Str} (h : Clause T) (A C : Str) (hC : ∀ c ∈ C, delim2 c = false) :
    endTerm (A ++ (T ++ C)) A.length = .ok none := by
  rw [clause_gen h]
  obtain ⟨⟨B, rfl⟩, -⟩ := h
  rw [show A.length + ('[' :: (B ++ [']'])).length - 1 = (A ++ '[' :: B).length by simp, clause_last, find_not]
  · rw [termLoop]
  · intro b hb
    rcases List.mem_cons.1 hb with rfl | hb
    · decide
    · exact hC b hb

theorem clause_comma {T : Str} (h : Clause T) (A D : Str) :
    endTerm (A ++ (T ++ ',' :: D)) A.length = .ok (some (A.length + T.length)) := by
  rw [clause_gen h]
  obtain ⟨⟨B, rfl⟩, -⟩ := h
  rw [show A.length + ('[' :: (B ++ [']'])).length - 1 = (A ++ '[' :: B).length by simp, clause_last]
  rw [show find delim2 ((A ++ '[' :: B) ++ ']' :: ',' :: D) (A ++ '[' :: B).length = some ((A ++ '[' :: B).length + 1) from
    find_at delim2 _ (B := [']']) (by simp; decide) (by decide) D]
  rw [show (A ++ '[' :: B ++ ']' :: ',' :: D).length = (A ++ '[' :: B ++ ',' :: D).length + 1 by simp; omega, termLoop_stop]
  · congr 2; simp [Nat.add_assoc]
  · rw [show A ++ '[' :: B ++ ']' :: ',' :: D = (A ++ '[' :: B ++ [']']) ++ ',' :: D by simp,
      show (A ++ '[' :: B).length + 1 = (A ++ '[' :: B ++ [']']).length by simp; omega, get_app]
    decide

theorem quoted_gen {T : Str} (h : Quoted T) (A C : Str) :
    endTerm (A ++ (T ++ C)) A.length = .ok (if C = [] then none else some (A.length + T.length)) := by
  obtain ⟨B, rfl, hB⟩ := h
  have e : A ++ ('"' :: (B ++ ['"']) ++ C) = A ++ '"' :: (B ++ '"' :: C) := by simp
  have e2 : A ++ '"' :: (B ++ '"' :: C) = (A ++ ['"']) ++ (B ++ '"' :: C) := by simp
  have hf : find (· = '"') (A ++ '"' :: (B ++ '"' :: C)) (A.length + 1) = some (A.length + 1 + B.length) := by
    rw [e2, show A.length + 1 = (A ++ ['"']).length by simp]
    exact find_at _ _ (by simpa using hB) (by simp) C
  simp only [endTerm]
  rw [e, show decide (A.length ≤ (A ++ '"' :: (B ++ '"' :: C)).length) = true by simp, Res.need_true, Res.ok_bind, get_app,
    if_pos rfl, hf]
  simp only [List.length_append, List.length_cons, List.length_nil]
  cases C with
  | nil => rw [if_neg (by simp; omega), if_pos rfl]
  | cons c C => rw [if_pos (by simp; omega), if_neg (by simp)]; congr 2; omega

/-! ### Numbers -/

theorem takeWhile_all (p : Char → Bool) : ∀ l : Str, (∀ c ∈ l, p c = true) → l.takeWhile p = l
  | [], _ => rfl
  | a :: l, h => by
    rw [List.takeWhile_cons_of_pos (h a (List.mem_cons_self ..)), takeWhile_all p l fun c hc => h c (List.mem_cons_of_mem _ hc)]

theorem digit_ok : ∀ k < 10, (digit k).isDigit = true ∧ digVal (digit k) = k ∧ digit k ≠ '-' ∧ digit k ≠ '+' ∧ digit k ≠ '"' ∧
    space (digit k) = false ∧ delim (digit k) = false ∧ brack (digit k) = false ∧ between (digit k) = false := by decide

/-- The characters of printed numbers. -/
theorem decNat_chars (n : Nat) : decNat n ≠ [] ∧ ∀ c ∈ decNat n, ∃ k < 10, c = digit k := by
  induction n using Nat.strongRecOn with
  | _ n ih =>
    rw [decNat]
    split
    · exact ⟨by simp, fun c hc => ⟨n, by assumption, by simpa using hc⟩⟩
    · refine ⟨by simp, fun c hc => ?_⟩
      rcases List.mem_append.1 hc with hc | hc
      · exact (ih (n / 10) (by omega)).2 c hc
      · exact ⟨n % 10, by omega, by simpa using hc⟩

theorem decNat_val (n : Nat) : (decNat n).foldl (fun a c => 10 * a + digVal c) 0 = n := by
  induction n using Nat.strongRecOn with
  | _ n ih =>
    rw [decNat]
    split
    · next h => simp [(digit_ok n h).2.1]
    · rw [List.foldl_append, ih (n / 10) (by omega)]
      simp only [List.foldl_cons, List.foldl_nil, (digit_ok (n % 10) (by omega)).2.1]
      omega

theorem natVal_dec (n : Nat) : natVal (decNat n) = some n := by
  have h : (decNat n).takeWhile Char.isDigit = decNat n := by
    refine takeWhile_all _ _ fun c hc => ?_
    obtain ⟨k, hk, rfl⟩ := (decNat_chars n).2 c hc
    exact (digit_ok k hk).1
  simp only [natVal, h]
  rw [if_neg (decNat_chars n).1, decNat_val]

theorem dec_chars (i : Int) : dec i ≠ [] ∧ ∀ c ∈ dec i, c = '-' ∨ ∃ k < 10, c = digit k := by
  cases i with
  | ofNat n => exact ⟨(decNat_chars n).1, fun c hc => .inr ((decNat_chars n).2 c hc)⟩
  | negSucc n =>
    refine ⟨by simp [dec], fun c hc => ?_⟩
    rcases List.mem_cons.1 hc with rfl | hc
    · exact .inl rfl
    · exact .inr ((decNat_chars (n + 1)).2 c hc)

theorem dec_char (i : Int) : ∀ c ∈ dec i, c ≠ '"' ∧ space c = false ∧ delim c = false ∧ brack c = false ∧ between c = false := by
  intro c hc
  rcases (dec_chars i).2 c hc with rfl | ⟨k, hk, rfl⟩
  · decide
  · obtain ⟨-, -, -, -, h1, h2, h3, h4, h5⟩ := digit_ok k hk
    exact ⟨h1, h2, h3, h4, h5⟩

theorem dropWhile_none (p : Char → Bool) (l : Str) (h : ∀ c ∈ l, p c = false) : l.dropWhile p = l := by
  cases l with
  | nil => rfl
  | cons a l => rw [List.dropWhile_cons_of_neg (by simp [h a (List.mem_cons_self ..)])]

theorem intVal_dec (i : Int) : intVal (dec i) = some i := by
  rw [intVal, dropWhile_none space _ fun c hc => (dec_char i c hc).2.1]
  cases i with
  | ofNat n =>
    obtain ⟨c, l, e⟩ := List.exists_cons_of_ne_nil (decNat_chars n).1
    obtain ⟨k, hk, hc⟩ := (decNat_chars n).2 c (by simp [e])
    have h := digit_ok k hk
    simp only [dec]
    split
    · next h' => rw [e] at h'; simp only [List.cons.injEq] at h'; rw [← hc, h'.1] at h; exact absurd rfl h.2.2.1
    · next h' => rw [e] at h'; simp only [List.cons.injEq] at h'; rw [← hc, h'.1] at h; exact absurd rfl h.2.2.2.1
    · rw [natVal_dec]; rfl
  | negSucc n =>
    simp only [dec, natVal_dec]
    simp [Int.negSucc_eq]

theorem rdInt_dec (i : Int) (h : IntFits i) : rdInt (dec i) = .ok i := by
  rw [rdInt, dropWhile_none space _ fun c hc => (dec_char i c hc).2.1, if_neg (dec_chars i).1, intVal_dec]
  simp only
  obtain ⟨h1, h2⟩ := h
  congr 1
  omega

theorem dec_atom (i : Int) : Atom (dec i) := by
  refine ⟨(dec_chars i).1, fun c hc => (dec_char i c hc).2.2.1, ?_⟩
  obtain ⟨c, l, e⟩ := List.exists_cons_of_ne_nil (dec_chars i).1
  have := (dec_char i c (by simp [e])).1
  simpa [e] using this

/-! ### Vectors -/

/-- A text read as the value `v` when it stands as an element of a vector. -/
def Elem {β : Type} (rd : Str → Res β) (T : Str) (v : β) : Prop :=
  (∀ A, endTerm (A ++ (T ++ [']'])) A.length = .ok none) ∧
  (∀ A D, endTerm (A ++ (T ++ ',' :: D)) A.length = .ok (some (A.length + T.length))) ∧
  (∃ c, T.head? = some c ∧ between c = false) ∧ rd T = .ok v

theorem vecLoop_ok {β : Type} (rd : Str → Res β) {Ts : List Str} {vs : List β} (h : List.Forall₂ (Elem rd) Ts vs) (hne : Ts ≠ []) :
    ∀ (A : Str) (n : Nat), Ts.length ≤ n → (A ++ (joinC Ts ++ [']'])).length ≤ intMax →
      vecLoop rd (A ++ (joinC Ts ++ [']'])) n A.length = .ok vs := by
  induction h with
  | nil => exact absurd rfl hne
  | @cons T v Ts vs hT hTs ih =>
    intro A n hn hlen
    obtain ⟨n, rfl⟩ : ∃ k, n = k + 1 := ⟨n - 1, by simp at hn; omega⟩
    obtain ⟨h1, h2, h3, h4⟩ := hT
    by_cases hT0 : Ts = []
    · subst hT0
      cases hTs
      rw [show joinC [T] = T from rfl, vecLoop, h1, Res.ok_bind]
      simp only [Option.getD_none]
      rw [show (A ++ (T ++ [']'])).length - 1 = A.length + T.length by simp, sub_mid, h4, Res.ok_bind,
        ← List.append_assoc, ← List.length_append, find_not]
      simp [between]
    · rw [joinC_cons T hT0, List.append_assoc, List.cons_append, vecLoop, h2, Res.ok_bind]
      simp only [Option.getD_some]
      rw [sub_mid, h4, Res.ok_bind, ← List.append_assoc, ← List.length_append]
      obtain ⟨U, Us, rfl⟩ := List.exists_cons_of_ne_nil hT0
      cases hTs with
      | @cons _ w _ ws hU hUs =>
        obtain ⟨c, hc, hb⟩ := hU.2.2.1
        have hhead : ∃ R, joinC (U :: Us) ++ [']'] = c :: R := by
          obtain ⟨c', U', rfl⟩ : ∃ c' U', U = c' :: U' := by cases U with
            | nil => simp at hc
            | cons a b => exact ⟨a, b, rfl⟩
          simp only [List.head?_cons, Option.some.injEq] at hc
          subst hc
          cases Us with
          | nil => exact ⟨_, rfl⟩
          | cons u us => exact ⟨_, rfl⟩
        obtain ⟨R, hR⟩ := hhead
        have hf : find (fun c => !between c) (A ++ T ++ ',' :: (joinC (U :: Us) ++ [']'])) (A ++ T).length =
            some ((A ++ T).length + 1) := by
          rw [hR]
          exact find_at _ (A ++ T) (B := [',']) (by simp; decide) (c := c) (by simp [hb]) R
        have hx : A ++ T ++ ',' :: (joinC (U :: Us) ++ [']']) = (A ++ T ++ [',']) ++ (joinC (U :: Us) ++ [']']) := by simp
        have hlen' : ((A ++ T ++ [',']) ++ (joinC (U :: Us) ++ [']'])).length ≤ intMax := by
          rw [joinC_cons T hT0] at hlen
          rw [← hx]
          simpa [Nat.add_assoc] using hlen
        rw [hf]
        simp only
        rw [toInt, if_pos (by simp at hlen' ⊢; omega), Res.ok_bind, hx, show (A ++ T).length + 1 = (A ++ T ++ [',']).length by simp; omega,
          ih hT0 _ n (by simp at hn ⊢; omega) hlen', Res.ok_bind]

theorem joinC_length : ∀ Ts : List Str, (∀ T ∈ Ts, T ≠ []) → Ts.length ≤ (joinC Ts).length
  | [], _ => by simp
  | [T], h => by
    have := List.length_pos_iff.2 (h T (by simp))
    simp [joinC]; omega
  | T :: U :: l, h => by
    have := joinC_length (U :: l) fun x hx => h x (List.mem_cons_of_mem _ hx)
    simp only [joinC, List.length_append, List.length_cons] at *
    omega

theorem getVec_ok {β : Type} (rd : Str → Res β) {Ts : List Str} {vs : List β} (h : List.Forall₂ (Elem rd) Ts vs) (hne : Ts ≠ [])
    (hlen : ('[' :: (joinC Ts ++ [']'])).length ≤ intMax) : getVec rd ('[' :: (joinC Ts ++ [']'])) = .ok vs := by
  rw [getVec, if_neg (by simp)]
  refine vecLoop_ok rd h hne ['['] _ ?_ hlen
  have : ∀ T ∈ Ts, T ≠ [] := by
    clear hne hlen
    induction h with
    | nil => simp
    | cons hT _ ih =>
      intro U hU
      rcases List.mem_cons.1 hU with rfl | hU
      · rintro rfl; obtain ⟨c, hc, -⟩ := hT.2.2.1; simp at hc
      · exact ih U hU
  have := joinC_length Ts this
  simp
  omega

/-! ## C76 -/

/-- A non-empty vector of `int` reads back (texts shorter than 2^31 characters). -/
theorem C76_vec_partial (l : List Int) (hne : l ≠ []) (hf : ∀ i ∈ l, IntFits i) (hlen : (setVec l).length ≤ intMax) :
    getVec rdInt (setVec l) = .ok l := by
  refine getVec_ok rdInt ?_ (by simpa using hne) hlen
  clear hne hlen
  induction l with
  | nil => exact .nil
  | cons i l ih =>
    refine .cons ⟨fun A => atom_end (dec_atom i) A _ (by simp; decide), fun A D => atom_comma (dec_atom i) A D, ?_,
      rdInt_dec i (hf i (List.mem_cons_self ..))⟩ (ih fun j hj => hf j (List.mem_cons_of_mem _ hj))
    obtain ⟨c, r, e⟩ := List.exists_cons_of_ne_nil (dec_chars i).1
    exact ⟨c, by simp [e], (dec_char i c (by simp [e])).2.2.2.2⟩

theorem joinC_mem {Ts : List Str} {c : Char} (h : c ∈ joinC Ts) : c = ',' ∨ ∃ T ∈ Ts, c ∈ T := by
  induction Ts with
  | nil => simp [joinC] at h
  | cons T Ts ih =>
    by_cases h0 : Ts = []
    · subst h0; exact .inr ⟨T, by simp, h⟩
    · rw [joinC_cons T h0] at h
      rcases List.mem_append.1 h with h | h
      · exact .inr ⟨T, by simp, h⟩
      · rcases List.mem_cons.1 h with h | h
        · exact .inl h
        · rcases ih h with h | ⟨U, hU, h⟩
          · exact .inl h
          · exact .inr ⟨U, by simp [hU], h⟩

theorem setVec_clause (l : List Int) : Clause (setVec l) := by
  refine clause_flat _ fun c hc => ?_
  rcases joinC_mem hc with rfl | ⟨T, hT, h⟩
  · decide
  · obtain ⟨i, -, rfl⟩ := List.mem_map.1 hT
    exact (dec_char i c h).2.2.2.1

theorem setVec_nospace (l : List Int) : ∀ c ∈ setVec l, space c = false := by
  intro c hc
  simp only [setVec, List.mem_cons, List.mem_append, List.not_mem_nil, or_false] at hc
  rcases hc with rfl | hc | rfl
  · decide
  · rcases joinC_mem hc with rfl | ⟨T, hT, h⟩
    · decide
    · obtain ⟨i, -, rfl⟩ := List.mem_map.1 hT
      exact (dec_char i c h).2.1
  · decide

theorem rdWord_word (T : Str) (h : ∀ c ∈ T, space c = false) : rdWord T = .ok T := by
  rw [rdWord, dropWhile_none space T h, takeWhile_all]
  intro c hc
  simp [h c hc]

theorem joinC_le {Ts : List Str} {T : Str} (h : T ∈ Ts) : T.length ≤ (joinC Ts).length := by
  induction Ts with
  | nil => simp at h
  | cons U Ts ih =>
    by_cases h0 : Ts = []
    · subst h0
      rw [List.mem_singleton] at h
      rw [h]
      exact Nat.le_refl _
    · rw [joinC_cons U h0]
      rcases List.mem_cons.1 h with rfl | h
      · simp
      · have := ih h; simp; omega

/-- A non-empty vector of non-empty vectors of `int` reads back. -/
theorem C76_vec_vec_partial (l : List (List Int)) (hne : l ≠ []) (hi : ∀ v ∈ l, v ≠ []) (hf : ∀ v ∈ l, ∀ i ∈ v, IntFits i)
    (hlen : (setVecVec l).length ≤ intMax) : getVecVec rdInt (setVecVec l) = .ok l := by
  have h1 : getVec rdWord (setVecVec l) = .ok (l.map setVec) := by
    refine getVec_ok rdWord ?_ (by simpa using hne) hlen
    clear hne hlen hi hf
    induction l with
    | nil => exact .nil
    | cons v l ih =>
      refine .cons ⟨fun A => clause_end (setVec_clause v) A _ (by simp; decide), fun A D => clause_comma (setVec_clause v) A D,
        ⟨'[', rfl, by decide⟩, rdWord_word _ (setVec_nospace v)⟩ ih
  have h2 : ∀ (ls R : List (List Int)), (∀ v ∈ ls, v ∈ l) →
      Res.forM (ls.map setVec) R (fun R p => do let v ← getVec rdInt p; .ok (R ++ [v])) = .ok (R ++ ls) := by
    intro ls
    induction ls with
    | nil => intro R _; simp
    | cons v ls ih =>
      intro R hm
      have hv := hm v (List.mem_cons_self ..)
      rw [List.map_cons, Res.forM_cons, C76_vec_partial v (hi v hv) (hf v hv), Res.ok_bind, Res.ok_bind,
        ih _ fun w hw => hm w (List.mem_cons_of_mem _ hw)]
      · simp
      · have := joinC_le (List.mem_map.2 ⟨v, hv, rfl⟩ : setVec v ∈ l.map setVec)
        simp only [setVecVec, List.length_cons, List.length_append] at hlen
        omega
  rw [getVecVec, h1, Res.ok_bind, h2 l [] fun v hv => hv]
  rfl

/-- Any string reads back, quotes or not. -/
theorem C76_string (s : Str) : getStr (setStr s) = s := by
  rw [getStr, setStr, if_pos]
  · simp
  · refine ⟨by simp, rfl, ?_⟩
    rw [← List.cons_append, List.getLast?_append]
    rfl

/-- An `int` reads back. -/
theorem C76_int (i : Int) (h : IntFits i) : getInt (setInt i) = .ok i := by
  rw [getInt, setInt, C76_string, stoi, intVal_dec]
  simp [h]

/-- An empty vector does not read back: the element read is uninitialised. -/
theorem C76_empty_fails : getVec rdInt (setVec []) = .ub := by rfl

/-- An empty vector of vectors reads back with one, empty, element. -/
theorem C76_empty_vec_vec_fails : getVecVec rdInt (setVecVec []) = .ok [[]] := by rfl

/-- A vector with an empty element does not read back. -/
theorem C76_inner_empty_fails : getVecVec rdInt (setVecVec [[]]) = .ub := by rfl

theorem look_put (d : Dict) (k v k' : Str) : look (put d k v) k' = if k' = k then some v else look d k' := by
  induction d with
  | nil => by_cases h : k = k' <;> simp [put, look, h, eq_comm]
  | cons p d ih =>
    obtain ⟨a, b⟩ := p
    rw [put]
    by_cases h : a = k
    · subst h
      rw [if_pos rfl]
      by_cases h' : a = k'
      · subst h'; simp [look]
      · simp [look, h', Ne.symm h']
    · rw [if_neg h]
      by_cases h' : a = k'
      · subst h'; simp [look, h]
      · have : look ((a, b) :: put d k v) k' = look (put d k v) k' := by simp [look, h']
        rw [this, ih]
        have : look ((a, b) :: d) k' = look d k' := by simp [look, h']
        rw [this]

/-- What is stored under a key is found under that key and leaves the other keys alone. -/
theorem C76_keys (d : Dict) (k v : Str) : look (put d k v) k = some v ∧ ∀ k', k' ≠ k → look (put d k v) k' = look d k' :=
  ⟨by rw [look_put, if_pos rfl], fun k' h => by rw [look_put, if_neg h]⟩

example : getVec rdInt "[12,-3,45]".toList = .ok [12, -3, 45] := by decide
example : getVecVec rdInt "[[1,2],[3]]".toList = .ok [[1, 2], [3]] := by decide
example : getStr (setStr "a \"b\"".toList) = "a \"b\"".toList := by decide
example : setVecVec [[1, 20], [-3]] = "[[1,20],[-3]]".toList := by
  have h1 : dec 1 = ['1'] := by rw [show dec 1 = decNat 1 from rfl, decNat]; decide
  have h2 : dec 20 = ['2', '0'] := by
    rw [show dec 20 = decNat 20 from rfl, decNat, if_neg (by omega), decNat]; decide
  have h3 : dec (-3) = ['-', '3'] := by rw [show dec (-3) = '-' :: decNat 3 from rfl, decNat]; decide
  simp only [setVecVec, setVec, List.map_cons, List.map_nil, h1, h2, h3]
  decide

/-! ## C157 -/

/-- A key that survives printing: no blank, `=` or `}`, not starting with a comma. -/
def Key (k : Str) : Prop := k ≠ [] ∧ (∀ c ∈ k, blank c = false ∧ c ≠ '=' ∧ c ≠ '}') ∧ k.head? ≠ some ','

/-- A text that survives printing. -/
def Plain (v : Str) : Prop := (Clause v ∨ Quoted v) ∧ ∀ c ∈ v, blank c = false ∧ c ≠ '}'

theorem plain_setVec (l : List Int) : Plain (setVec l) := by
  refine ⟨.inl (setVec_clause l), fun c hc => ?_⟩
  have h1 := setVec_nospace l c hc
  simp only [space, Bool.or_eq_false_iff] at h1
  refine ⟨h1.1.1, ?_⟩
  rintro rfl
  simp only [setVec, List.mem_cons, List.mem_append, List.not_mem_nil, or_false] at hc
  rcases hc with hc | hc | hc
  · exact absurd hc (by decide)
  · rcases joinC_mem hc with hc | ⟨T, hT, h⟩
    · exact absurd hc (by decide)
    · obtain ⟨i, -, rfl⟩ := List.mem_map.1 hT
      exact absurd (dec_char i _ h).2.2.1 (by decide)
  · exact absurd hc (by decide)

theorem plain_setVecVec (l : List (List Int)) : Plain (setVecVec l) := by
  refine ⟨.inl (clause_nest _ fun T hT => ?_), fun c hc => ?_⟩
  · obtain ⟨v, -, rfl⟩ := List.mem_map.1 hT
    exact setVec_clause v
  · simp only [setVecVec, List.mem_cons, List.mem_append, List.not_mem_nil, or_false] at hc
    rcases hc with rfl | hc | rfl
    · decide
    · rcases joinC_mem hc with rfl | ⟨T, hT, h⟩
      · decide
      · obtain ⟨v, -, rfl⟩ := List.mem_map.1 hT
        exact (plain_setVec v).2 c h
    · decide

theorem plain_setStr (s : Str) (h : ∀ c ∈ s, c ≠ '"' ∧ blank c = false ∧ c ≠ '}') : Plain (setStr s) := by
  refine ⟨.inr ⟨s, rfl, fun c hc => (h c hc).1⟩, fun c hc => ?_⟩
  simp only [setStr, List.mem_cons, List.mem_append, List.not_mem_nil, or_false] at hc
  rcases hc with rfl | hc | rfl
  · decide
  · exact (h c hc).2
  · decide

theorem plain_setInt (i : Int) : Plain (setInt i) := by
  refine plain_setStr _ fun c hc => ?_
  obtain ⟨h1, h2, h3, -⟩ := dec_char i c hc
  simp only [space, Bool.or_eq_false_iff] at h2
  refine ⟨h1, h2.1.1, ?_⟩
  rintro rfl
  exact absurd h3 (by decide)

theorem plain_end {v : Str} (h : Plain v) (A : Str) : endTerm (A ++ v) A.length = .ok none := by
  rcases h.1 with h | h
  · simpa using clause_end h A [] (by simp)
  · simpa using quoted_gen h A []

theorem plain_comma {v : Str} (h : Plain v) (A D : Str) :
    endTerm (A ++ (v ++ ',' :: D)) A.length = .ok (some (A.length + v.length)) := by
  rcases h.1 with h | h
  · exact clause_comma h A D
  · simpa using quoted_gen h A (',' :: D)

theorem plain_head {v : Str} (h : Plain v) : ∃ c B, v = c :: B ∧ blank c = false ∧ c ≠ '{' := by
  rcases h.1 with ⟨⟨B, rfl⟩, -⟩ | ⟨B, rfl, -⟩
  · exact ⟨_, _, rfl, by decide, by decide⟩
  · exact ⟨_, _, rfl, by decide, by decide⟩

theorem leaf_plain {v : Str} (h : Plain v) : leaf v = v := by
  obtain ⟨c, B, rfl, hb, hc⟩ := plain_head h
  have h1 : find (fun c => !blank c) (c :: B) 0 = some 0 := find_at _ [] (B := []) (by simp) (c := c) (by simp [hb]) B
  have h2 : find blank (c :: B) 0 = none := find_not blank [] fun b hb => (h.2 b hb).1
  rw [leaf, h1]
  simp only
  rw [if_neg (by simpa using hc), h2]
  rfl

theorem put_new (d : Dict) (k v : Str) (h : ∀ p ∈ d, p.1 ≠ k) : put d k v = d ++ [(k, v)] := by
  induction d with
  | nil => rfl
  | cons p d ih =>
    obtain ⟨a, b⟩ := p
    rw [put, if_neg (h (a, b) (List.mem_cons_self ..)), ih fun p hp => h p (List.mem_cons_of_mem _ hp)]
    rfl

/-- Entries as printed. -/
def texts (d : Dict) : List Str := d.map fun p => p.1 ++ '=' :: p.2

theorem dictLoop_ok (es : Dict) (hk : ∀ p ∈ es, Key p.1) (hv : ∀ p ∈ es, Plain p.2) (hne : es ≠ []) :
    ∀ (A : Str) (d : Dict) (n : Nat), es.length ≤ n → ((d ++ es).map (·.1)).Nodup → d.length + es.length ≤ 1000 →
      dictLoop (A ++ joinC (texts es)) n (some A.length) d = .ok (d ++ es, true) := by
  induction es with
  | nil => exact absurd rfl hne
  | cons p es ih =>
    intro A d n hn hnd h1000
    obtain ⟨n, rfl⟩ : ∃ k, n = k + 1 := ⟨n - 1, by simp at hn; omega⟩
    obtain ⟨k, v⟩ := p
    have hkk := hk (k, v) (List.mem_cons_self ..)
    have hvv := hv (k, v) (List.mem_cons_self ..)
    obtain ⟨vc, vB, hvc, hvb, -⟩ := plain_head hvv
    simp only at hkk hvv hvc
    obtain ⟨hk1, hk2, -⟩ := hkk
    obtain ⟨D, hD, hcase⟩ : ∃ D, joinC (texts ((k, v) :: es)) = k ++ '=' :: (v ++ D) ∧
        (D = [] ∧ es = [] ∨ D = ',' :: joinC (texts es) ∧ es ≠ []) := by
      by_cases h0 : es = []
      · subst h0; exact ⟨[], by simp [joinC, texts], .inl ⟨rfl, rfl⟩⟩
      · exact ⟨_, by rw [texts, List.map_cons, joinC_cons _ (by simpa using h0)]; simp [texts], .inr ⟨rfl, h0⟩⟩
    have hput : put d k v = d ++ [(k, v)] := by
      refine put_new d k v fun p hp e => ?_
      rw [List.map_append, List.nodup_append] at hnd
      exact hnd.2.2 p.1 (List.mem_map.2 ⟨p, hp, rfl⟩) k (by simp) e
    have hx1 : A ++ (k ++ '=' :: (v ++ D)) = (A ++ k) ++ '=' :: (v ++ D) := by simp
    have hx2 : A ++ (k ++ '=' :: (v ++ D)) = (A ++ k ++ ['=']) ++ (v ++ D) := by simp
    have f1 : find (fun c => c = ' ' || c = '=' || c = '\n' || c = '\t') (A ++ (k ++ '=' :: (v ++ D))) A.length =
        some (A.length + k.length) := by
      refine find_at _ A (fun b hb => ?_) (by simp) _
      obtain ⟨e1, e2, -⟩ := hk2 b hb
      simp only [blank, Bool.or_eq_false_iff, decide_eq_false_iff_not] at e1 ⊢
      exact ⟨⟨⟨e1.1.1.1, e2⟩, e1.1.1.2⟩, e1.1.2⟩
    have f2 : find (· = '=') (A ++ (k ++ '=' :: (v ++ D))) (A.length + k.length) = some (A.length + k.length) := by
      rw [hx1, ← List.length_append]
      exact find_at _ (A ++ k) (B := []) (by simp) (by simp) _
    have f3 : find (fun c => !blank c) (A ++ (k ++ '=' :: (v ++ D))) (A.length + k.length + 1) = some (A.length + k.length + 1) := by
      rw [hx2, show A.length + k.length + 1 = (A ++ k ++ ['=']).length by simp; omega, hvc]
      exact find_at _ _ (B := []) (by simp) (c := vc) (by simp [hvb]) _
    rw [hD, dictLoop, if_pos ⟨by simp, by simp at h1000; omega⟩, f1]
    simp only
    rw [f2]
    simp only
    rw [f3]
    simp only
    rw [sub_mid]
    rcases hcase with ⟨rfl, rfl⟩ | ⟨rfl, h0⟩
    · have ht : endTerm (A ++ (k ++ '=' :: (v ++ []))) (A.length + k.length + 1) = .ok none := by
        rw [hx2, show A.length + k.length + 1 = (A ++ k ++ ['=']).length by simp; omega, List.append_nil]
        exact plain_end hvv _
      rw [ht, Res.ok_bind]
      simp only
      rw [hx2, show A.length + k.length + 1 = (A ++ k ++ ['=']).length by simp; omega, List.drop_left, List.append_nil, leaf_plain hvv, hput]
    · have ht : endTerm (A ++ (k ++ '=' :: (v ++ ',' :: joinC (texts es)))) (A.length + k.length + 1) =
          .ok (some ((A ++ k ++ ['=']).length + v.length)) := by
        rw [hx2, show A.length + k.length + 1 = (A ++ k ++ ['=']).length by simp; omega]
        exact plain_comma hvv _ _
      rw [ht, Res.ok_bind]
      simp only
      rw [hx2, show A.length + k.length + 1 = (A ++ k ++ ['=']).length by simp; omega, sub_mid, leaf_plain hvv, hput]
      obtain ⟨q, es', rfl⟩ := List.exists_cons_of_ne_nil h0
      have hkq := hk q (by simp)
      obtain ⟨c, R, hR, hc1, hc2, hc3⟩ : ∃ c R, joinC (texts (q :: es')) = c :: R ∧ blank c = false ∧ c ≠ ',' ∧ c ≠ '}' := by
        obtain ⟨c, k', e⟩ := List.exists_cons_of_ne_nil hkq.1
        have hc := hkq.2.1 c (by simp [e])
        have hh := hkq.2.2
        rw [e] at hh
        refine ⟨c, ?_, ?_, hc.1, by simpa using hh, hc.2.2⟩
        · exact (joinC (texts (q :: es'))).tail
        · cases es' with
          | nil => simp [texts, joinC, e]
          | cons r es' => simp [texts, joinC, e]
      have hx3 : A ++ k ++ ['='] ++ (v ++ ',' :: joinC (texts (q :: es'))) =
          (A ++ k ++ ['='] ++ v) ++ ([','] ++ joinC (texts (q :: es'))) := by simp
      have hx4 : A ++ k ++ ['='] ++ (v ++ ',' :: joinC (texts (q :: es'))) =
          (A ++ k ++ ['='] ++ v ++ [',']) ++ joinC (texts (q :: es')) := by simp
      have hf : find (fun c => !(blank c || c = ',' || c = '}')) (A ++ k ++ ['='] ++ (v ++ ',' :: joinC (texts (q :: es'))))
          ((A ++ k ++ ['=']).length + v.length) = some (A ++ k ++ ['='] ++ v ++ [',']).length := by
        rw [hx3, ← List.length_append, hR, find_at _ _ (B := [',']) (by simp) (c := c) (by simp [hc1, hc2, hc3]) R]
        simp; omega
      rw [hf, hx4, ih (fun p hp => hk p (List.mem_cons_of_mem _ hp)) (fun p hp => hv p (List.mem_cons_of_mem _ hp)) h0 _ _ n
        (by simp at hn ⊢; omega) (by simpa using hnd) (by simp at h1000 ⊢; omega)]
      simp

/-- Printing a configuration object and reading the text gives the object back. -/
theorem C157_roundtrip (d : Dict) (hne : d ≠ []) (hk : ∀ p ∈ d, Key p.1) (hv : ∀ p ∈ d, Plain p.2)
    (hnd : (d.map (·.1)).Nodup) (hlen : d.length ≤ 1000) : parse (print d) = .ok ([], d, true) := by
  have hp : print d = '{' :: (joinC (texts d) ++ ['}']) := by rw [print, if_neg hne]; rfl
  have h1 : find (fun c => !blank c) (print d) 0 = some 0 := by
    rw [hp]; exact find_at _ [] (B := []) (by simp) (c := '{') (by decide) _
  have h2 : find (· = '}') (print d) 0 = some (1 + (joinC (texts d)).length) := by
    rw [hp]
    have := find_at (· = '}') [] (B := '{' :: joinC (texts d)) (fun b hb => ?_) (c := '}') (by simp) []
    · simpa [Nat.add_comm] using this
    · simp only [decide_eq_false_iff_not]
      rcases List.mem_cons.1 hb with rfl | hb
      · decide
      · rcases joinC_mem hb with rfl | ⟨T, hT, h⟩
        · decide
        · obtain ⟨p, hp', rfl⟩ := List.mem_map.1 hT
          rcases List.mem_append.1 h with h | h
          · exact ((hk p hp').2.1 b h).2.2
          · rcases List.mem_cons.1 h with rfl | h
            · decide
            · exact ((hv p hp').2 b h).2
  have h3 : sub (print d) 1 (1 + (joinC (texts d)).length) = joinC (texts d) := by
    rw [hp]; exact sub_mid ['{'] (joinC (texts d)) ['}']
  have h4 : find (fun c => !blank c) (joinC (texts d)) 0 = some 0 := by
    obtain ⟨q, es', rfl⟩ := List.exists_cons_of_ne_nil hne
    have hkq := hk q (by simp)
    obtain ⟨c, k', e⟩ := List.exists_cons_of_ne_nil hkq.1
    have hc := (hkq.2.1 c (by simp [e])).1
    obtain ⟨R, hR⟩ : ∃ R, joinC (texts (q :: es')) = c :: R := by
      refine ⟨(joinC (texts (q :: es'))).tail, ?_⟩
      cases es' with
      | nil => simp [texts, joinC, e]
      | cons r es' => simp [texts, joinC, e]
    rw [hR]
    exact find_at _ [] (B := []) (by simp) (c := c) (by simp [hc]) _
  have hlt : d.length ≤ (joinC (texts d)).length + 1 := by
    have := joinC_length (texts d) (fun T hT => by obtain ⟨p, -, rfl⟩ := List.mem_map.1 hT; simp)
    simp only [texts, List.length_map] at this ⊢
    omega
  rw [parse, h1]
  simp only
  rw [if_pos (by rw [hp]; rfl), h2]
  simp only [Nat.zero_add]
  rw [h3, parseDict, h4]
  have := dictLoop_ok d hk hv hne [] [] _ hlt (by simpa using hnd) (by simpa using hlen)
  simp only [List.nil_append, List.length_nil] at this
  rw [this]
  rfl

/-- Which texts qualify: all integer vectors, vectors of vectors and integers, and strings without blank, quote and `}`. -/
theorem C157_plain : (∀ l, Plain (setVec l)) ∧ (∀ l, Plain (setVecVec l)) ∧ (∀ i, Plain (setInt i)) ∧
    ∀ s, (∀ c ∈ s, c ≠ '"' ∧ blank c = false ∧ c ≠ '}') → Plain (setStr s) :=
  ⟨plain_setVec, plain_setVecVec, plain_setInt, plain_setStr⟩

example : parse "{a=[1,2],bc=\"x,y\",d=[[1],[2,3]]}".toList =
    .ok ([], [("a".toList, "[1,2]".toList), ("bc".toList, "\"x,y\"".toList), ("d".toList, "[[1],[2,3]]".toList)], true) := by decide
example : ∃ d : Dict, d.length = 2 ∧ (∀ p ∈ d, Key p.1) ∧ (∀ p ∈ d, Plain p.2) ∧ (d.map (·.1)).Nodup :=
  ⟨[("a".toList, setVec [1, 2]), ("b".toList, setStr "x,y".toList)], rfl, by
    simp [Key]; decide, by
    simp only [List.mem_cons, List.not_mem_nil, or_false, forall_eq_or_imp, forall_eq]
    exact ⟨plain_setVec _, plain_setStr _ (by decide)⟩, by decide⟩

/-- Blanks before the key, between key and `=`, and between `=` and the value are ignored. -/
theorem C157_spaces (k v b0 b1 b2 : Str) (hk : Key k) (hv : Plain v) (h0 : ∀ c ∈ b0, blank c = true) (h1 : ∀ c ∈ b1, c = ' ' ∨ c = '\n' ∨ c = '\t')
    (h2 : ∀ c ∈ b2, blank c = true) : parseDict (b0 ++ (k ++ (b1 ++ '=' :: (b2 ++ v)))) = .ok ([(k, v)], true) := by
  obtain ⟨c, k', rfl⟩ := List.exists_cons_of_ne_nil hk.1
  obtain ⟨a, v', rfl, ha, -⟩ := plain_head hv
  have hc := (hk.2.1 c List.mem_cons_self).1
  generalize hx : b0 ++ ((c :: k') ++ (b1 ++ '=' :: (b2 ++ (a :: v')))) = x
  have e0 : find (fun c => !blank c) x 0 = some b0.length := by
    rw [← hx]
    have := find_at (fun c => !blank c) [] (B := b0) (fun b hb => by simp [h0 b hb]) (c := c) (by simp [hc])
      (k' ++ (b1 ++ '=' :: (b2 ++ (a :: v'))))
    simpa using this
  have e1 : find (fun c => c = ' ' || c = '=' || c = '\n' || c = '\t') x b0.length = some (b0.length + (c :: k').length) := by
    have hB : ∀ b ∈ c :: k', (b = ' ' || b = '=' || b = '\n' || b = '\t') = false := fun b hb => by
      have h := hk.2.1 b hb
      simp only [blank, Bool.or_eq_false_iff, decide_eq_false_iff_not] at h ⊢
      tauto
    rw [← hx]
    cases b1 with
    | nil => exact find_at _ b0 hB (c := '=') (by decide) _
    | cons d b1 =>
      have hd := h1 d List.mem_cons_self
      exact find_at _ b0 hB (c := d) (by
        rcases hd with rfl | rfl | rfl <;> decide) _
  have e2 : find (· = '=') x (b0.length + (c :: k').length) = some (b0.length + (c :: k').length + b1.length) := by
    have := find_at (· = '=') (b0 ++ (c :: k')) (B := b1) (fun b hb => by
      rcases h1 b hb with rfl | rfl | rfl <;> decide) (c := '=') (by simp) (b2 ++ (a :: v'))
    rw [← hx]
    simpa using this
  have e3 : find (fun c => !blank c) x (b0.length + (c :: k').length + b1.length + 1) =
      some (b0.length + (c :: k').length + b1.length + 1 + b2.length) := by
    have := find_at (fun c => !blank c) (b0 ++ (c :: k') ++ b1 ++ ['=']) (B := b2) (fun b hb => by simp [h2 b hb]) (c := a)
      (by simp [ha]) v'
    rw [← hx]
    have hl : (b0 ++ (c :: k') ++ b1 ++ ['=']).length = b0.length + (c :: k').length + b1.length + 1 := by
      simp only [List.length_append, List.length_cons, List.length_nil]
    rw [hl] at this
    simpa only [List.append_assoc, List.singleton_append] using this
  have e4 : endTerm x (b0.length + (c :: k').length + b1.length + 1 + b2.length) = .ok none := by
    have := plain_end hv (b0 ++ (c :: k') ++ b1 ++ ['='] ++ b2)
    rw [← hx]
    have hl : (b0 ++ (c :: k') ++ b1 ++ ['='] ++ b2).length = b0.length + (c :: k').length + b1.length + 1 + b2.length := by
      simp only [List.length_append, List.length_cons, List.length_nil]
    rw [hl] at this
    simpa only [List.append_assoc, List.singleton_append, List.cons_append, List.nil_append] using this
  have e5 : sub x b0.length (b0.length + (c :: k').length) = c :: k' := by
    rw [← hx]; exact sub_mid b0 (c :: k') _
  have e6 : x.drop (b0.length + (c :: k').length + b1.length + 1 + b2.length) = a :: v' := by
    rw [← hx, show b0 ++ ((c :: k') ++ (b1 ++ '=' :: (b2 ++ (a :: v')))) = (b0 ++ (c :: k') ++ b1 ++ ['='] ++ b2) ++ (a :: v') by simp]
    exact List.drop_left' (by simp; omega)
  have hlt : b0.length < x.length := by rw [← hx]; simp
  rw [parseDict, e0, dictLoop, if_pos ⟨hlt, by simp⟩, e1]
  simp only [e2, e3, e4, e5, e6, Res.ok_bind, leaf_plain hv]
  rfl

example : parseDict " key \n = [1,2]".toList = .ok ([("key".toList, "[1,2]".toList)], true) := by decide

/-! ## C158 -/

/-- A string with a blank is cut at the blank, and the quotes no longer match. -/
theorem C158_blank_fails : parse (print [("k".toList, setStr "a b".toList)]) = .ok ([], [("k".toList, "\"a".toList)], true) ∧
    getStr "\"a".toList = "\"a".toList := by decide

/-- A carriage return after a key, unlike the other blanks, becomes part of the key. -/
theorem C158_carriage_return_fails : parseDict "k\r=[1]".toList = .ok ([("k\r".toList, "[1]".toList)], true) := by decide

/-- A string with a brace is cut at the brace. -/
theorem C158_brace_fails : parse (print [("k".toList, setStr "a}b".toList)]) = .ok ([], [("k".toList, "\"a".toList)], true) := by
  decide

/-- A quote in a string ends it. -/
theorem C158_quote_fails : parse (print [("k".toList, setStr "a\"b".toList)]) = .ok ([], [("k".toList, "\"a\"".toList)], false) := by
  decide

theorem put_length (d : Dict) (k v : Str) : (put d k v).length ≤ d.length + 1 := by
  induction d with
  | nil => simp [put]
  | cons p d ih =>
    obtain ⟨a, b⟩ := p
    rw [put]
    split <;> simp
    exact ih

theorem dictLoop_limit (x : Str) : ∀ (n : Nat) (s : Option Nat) (d : Dict) (r : Dict × Bool), d.length ≤ 1000 →
    dictLoop x n s d = .ok r → r.1.length ≤ 1000
  | 0, _, _, _, _, h => by simp [dictLoop] at h
  | n + 1, none, d, r, hd, h => by
    simp only [dictLoop, Res.ok.injEq] at h
    rw [← h]; exact hd
  | n + 1, some s, d, r, hd, h => by
    rw [dictLoop] at h
    split at h
    · next hc =>
      split at h
      · cases h; exact hd
      · split at h
        · cases h; exact hd
        · split at h
          · cases h; exact hd
          · obtain ⟨g, -, h⟩ := Res.bind_eq_ok.1 h
            have : ∀ k v, (put d k v).length ≤ 1000 := fun k v => by have := put_length d k v; omega
            cases g with
            | none => simp only [Res.ok.injEq] at h; rw [← h]; exact this _ _
            | some g => exact dictLoop_limit x n _ _ r (this _ _) h
    · cases h; exact hd

/-- At most 1000 entries are read, so that no object with more reads back; `valid` does not tell. -/
theorem C158_limit_fails (d : Dict) (h : 1000 < d.length) (v : Str) (b : Bool) : parse (print d) ≠ .ok (v, d, b) := by
  intro e
  rw [parse] at e
  split at e
  · cases e; simp at h
  · split at e
    · split at e
      · cases e; simp at h
      · obtain ⟨r, h1, h2⟩ := Res.bind_eq_ok.1 e
        cases h2
        have := dictLoop_limit _ _ _ _ _ (by simp) h1
        omega
    · cases e; simp at h

/-- Reading `[[[1` does not end, however long it runs. -/
theorem C158_hang_fails (n : Nat) : endClause "[[[1".toList n 1 = .ub ∧ getVec rdInt "[[[1".toList = .ub := by
  refine ⟨?_, by decide⟩
  have h : ∀ n, endClause "[[[1".toList n 0 = .ub ∧ endClause "[[[1".toList n 1 = .ub := by
    intro n
    induction n using Nat.strongRecOn with
    | _ n ih =>
      have step : ∀ s, (s = 0 ∨ s = 1) → endClause "[[[1".toList n s = .ub := by
        intro s hs
        match n, ih with
        | 0, _ => rfl
        | 1, _ => rcases hs with rfl | rfl <;> rfl
        | 2, _ => rcases hs with rfl | rfl <;> decide
        | 3, _ => rcases hs with rfl | rfl <;> decide
        | n + 4, ih =>
          rcases hs with rfl | rfl
          · rw [endClause, show find brack "[[[1".toList (0 + 1) = some 1 by decide, endClause.go, if_pos (by decide), (ih (n + 2) (by omega)).2]
            rfl
          · rw [endClause, show find brack "[[[1".toList (1 + 1) = some 2 by decide, endClause.go, if_pos (by decide),
              endClause, show find brack "[[[1".toList (2 + 1) = none by decide, endClause.go, Res.ok_bind]
            simp only
            rw [show find brack "[[[1".toList 0 = some 0 by decide, endClause.go, if_pos (by decide), (ih (n + 1) (by omega)).1]
            rfl
      exact ⟨step 0 (.inl rfl), step 1 (.inr rfl)⟩
  exact (h n).2

end Js
end Cnine
