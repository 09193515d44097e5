import Verif.Model.PrefixTree
import Mathlib.Data.List.Infix
import Mathlib.Data.List.Nodup

/-! # C69, C118, C119: prefix trees -/

namespace Cnine.PT

variable {α : Type} [DecidableEq α]

/-- No key occurs twice in a node. -/
def Ok : PT α → Prop
  | nil => True
  | cons x c r => branch x r = none ∧ Ok c ∧ Ok r

theorem branch_setB (x y : α) (c : PT α) : ∀ t : PT α, branch y (setB x c t) = if y = x then some c else branch y t := by
  intro t
  induction t with
  | nil => rfl
  | cons z d r _ ihr =>
    unfold setB
    by_cases h : x = z
    · subst h
      rw [if_pos rfl]
      unfold branch
      by_cases g : y = x <;> simp [g]
    · rw [if_neg h]
      unfold branch
      by_cases g : y = z
      · subst g
        rw [if_pos rfl, if_neg (Ne.symm h), if_pos rfl]
      · rw [if_neg g, if_neg g, ihr]

theorem Ok.setB {x : α} {c : PT α} (hc : Ok c) : ∀ {t : PT α}, Ok t → Ok (setB x c t) := by
  intro t
  induction t with
  | nil => intro _; exact ⟨rfl, hc, trivial⟩
  | cons z d r _ ihr =>
    rintro ⟨h1, h2, h3⟩
    unfold PT.setB
    by_cases h : x = z
    · rw [if_pos h]; exact ⟨h1, hc, h3⟩
    · rw [if_neg h]
      exact ⟨by rw [branch_setB, if_neg (Ne.symm h)]; exact h1, h2, ihr h3⟩

theorem Ok.branch {x : α} : ∀ {t c : PT α}, Ok t → branch x t = some c → Ok c := by
  intro t
  induction t with
  | nil => intro c _ h; cases h
  | cons z d r _ ihr =>
    rintro c ⟨h1, h2, h3⟩ h
    unfold PT.branch at h
    split at h
    · injection h with h; subst h; exact h2
    · exact ihr h3 h

theorem Ok.addPath : ∀ (p : List α) {t : PT α}, Ok t → Ok (addPath t p) := by
  intro p
  induction p with
  | nil => intro t h; exact h
  | cons x xs ih =>
    intro t h
    unfold PT.addPath
    cases hb : PT.branch x t with
    | none => exact Ok.setB (ih (t := nil) trivial) h
    | some q => exact Ok.setB (ih (h.branch hb)) h

theorem find_nil_tree (l : List α) : find (nil : PT α) l = decide (l = []) := by
  cases l <;> simp [find, branch]

theorem find_addPath : ∀ (p l : List α) (t : PT α), find (addPath t p) l = true ↔ find t l = true ∨ l <+: p := by
  intro p
  induction p with
  | nil =>
    intro l t
    unfold addPath
    constructor
    · exact Or.inl
    · rintro (h | h)
      · exact h
      · rw [List.prefix_nil.mp h]; unfold find; rfl
  | cons x xs ih =>
    intro l t
    cases l with
    | nil => simp [find]
    | cons y ys =>
      have key : ∀ c : PT α, (∀ zs, find c zs = true ↔ (find t (x :: zs) = true ∨ zs <+: xs)) →
          (find (setB x c t) (y :: ys) = true ↔ find t (y :: ys) = true ∨ y :: ys <+: x :: xs) := by
        intro c hc
        rw [find, branch_setB]
        by_cases g : y = x
        · subst g
          rw [if_pos rfl]
          dsimp only
          rw [hc ys]
          simp [List.cons_prefix_cons]
        · rw [if_neg g]
          rw [find]
          constructor
          · exact Or.inl
          · rintro (h | h)
            · exact h
            · exact absurd (List.cons_prefix_cons.mp h).1 g
      unfold addPath
      cases hb : branch x t with
      | none =>
        refine key _ (fun zs => ?_)
        rw [ih zs nil, find_nil_tree]
        have : find t (x :: zs) = false := by rw [find, hb]
        rw [this]
        constructor
        · rintro (h | h)
          · have : zs = [] := by simpa using h
            subst this
            exact Or.inr List.nil_prefix
          · exact Or.inr h
        · rintro (h | h)
          · cases h
          · exact Or.inr h
      | some q =>
        refine key _ (fun zs => ?_)
        rw [ih zs q, find, hb]

/-- The tree after adding paths. -/
def ofPaths (ps : List (List α)) : PT α := ps.foldl addPath nil

theorem ofPaths_ok (ps : List (List α)) : Ok (ofPaths ps) := by
  have : ∀ (ps : List (List α)) (t : PT α), Ok t → Ok (ps.foldl addPath t) := by
    intro ps
    induction ps with
    | nil => intro t h; exact h
    | cons p ps ih => intro t h; exact ih _ (h.addPath p)
  exact this ps nil trivial

/-- A path is found exactly if it is empty or a prefix of an added path. -/
theorem C69_find (ps : List (List α)) (l : List α) : find (ofPaths ps) l = true ↔ l = [] ∨ ∃ p ∈ ps, l <+: p := by
  have : ∀ (ps : List (List α)) (t : PT α), find (ps.foldl addPath t) l = true ↔ find t l = true ∨ ∃ p ∈ ps, l <+: p := by
    intro ps
    induction ps with
    | nil => intro t; simp
    | cons p ps ih =>
      intro t
      rw [List.foldl_cons, ih, find_addPath]
      simp [or_assoc]
  unfold ofPaths
  rw [this, find_nil_tree]
  simp

theorem mem_kids : ∀ {t : PT α}, Ok t → ∀ (pre l : List α), l ∈ kids t pre ↔
    ∃ s, s ≠ [] ∧ l = pre ++ s ∧ find t s = true ∧ ∀ y, find t (s ++ [y]) = false := by
  intro t
  induction t with
  | nil =>
    intro _ pre l
    unfold kids
    constructor
    · intro h; cases h
    · rintro ⟨s, h1, _, h3, _⟩
      rw [find_nil_tree] at h3
      exact absurd (by simpa using h3) h1
  | cons x c r ihc ihr =>
    rintro ⟨h1, h2, h3⟩ pre l
    have hf : ∀ (y : α) (s : List α), find (cons x c r) (y :: s) = if y = x then find c s else find r (y :: s) := by
      intro y s
      rw [find, branch]
      by_cases g : y = x
      · subst g; rw [if_pos rfl, if_pos rfl]
      · rw [if_neg g, if_neg g, find]
    have hxr : ∀ s, find r (x :: s) = false := fun s => by rw [find, h1]
    have hc : l ∈ here (pre ++ [x]) c ++ kids c (pre ++ [x]) ↔
        ∃ s, l = pre ++ x :: s ∧ find c s = true ∧ ∀ y, find c (s ++ [y]) = false := by
      rw [List.mem_append, ihc h2]
      constructor
      · rintro (h | ⟨s, _, hl, a, b⟩)
        · cases c with
          | nil =>
            refine ⟨[], by simpa [here] using h, rfl, fun y => ?_⟩
            rw [find_nil_tree]; simp
          | cons _ _ _ => cases h
        · exact ⟨s, by simpa using hl, a, b⟩
      · rintro ⟨s, hl, a, b⟩
        cases s with
        | nil =>
          left
          cases c with
          | nil => simpa [here] using hl
          | cons z d e =>
            have := b z
            rw [List.nil_append, find, branch, if_pos rfl] at this
            dsimp only at this
            rw [find] at this
            cases this
        | cons z s => exact Or.inr ⟨z :: s, by simp, by simpa using hl, a, b⟩
    unfold kids
    rw [List.mem_append, hc, ihr h3]
    constructor
    · rintro (⟨s, hl, a, b⟩ | ⟨s, hs, hl, a, b⟩)
      · refine ⟨x :: s, by simp, hl, by rw [hf, if_pos rfl]; exact a, fun y => ?_⟩
        rw [List.cons_append, hf, if_pos rfl]
        exact b y
      · cases s with
        | nil => exact absurd rfl hs
        | cons z s =>
          have hz : z ≠ x := by
            rintro rfl
            rw [hxr] at a; cases a
          refine ⟨z :: s, by simp, hl, by rw [hf, if_neg hz]; exact a, fun y => ?_⟩
          have := b y
          rw [List.cons_append] at this ⊢
          rw [hf, if_neg hz]
          exact this
    · rintro ⟨s, hs, hl, a, b⟩
      cases s with
      | nil => exact absurd rfl hs
      | cons z s =>
        by_cases hz : z = x
        · subst hz
          refine Or.inl ⟨s, hl, by rw [hf, if_pos rfl] at a; exact a, fun y => ?_⟩
          have := b y
          rw [List.cons_append, hf, if_pos rfl] at this
          exact this
        · refine Or.inr ⟨z :: s, by simp, hl, by rw [hf, if_neg hz] at a; exact a, fun y => ?_⟩
          have := b y
          rw [List.cons_append, hf, if_neg hz] at this
          exact this

theorem nodup_kids : ∀ {t : PT α}, Ok t → ∀ pre : List α, (kids t pre).Nodup := by
  intro t
  induction t with
  | nil => intro _ _; exact List.nodup_nil
  | cons x c r ihc ihr =>
    rintro ⟨h1, h2, h3⟩ pre
    unfold kids
    rw [List.nodup_append, List.nodup_append]
    refine ⟨⟨?_, ihc h2 _, ?_⟩, ihr h3 pre, ?_⟩
    · cases c <;> simp [here]
    · intro a ha b hb e
      cases c with
      | nil => unfold kids at hb; cases hb
      | cons _ _ _ => cases ha
    · intro a ha b hb e
      subst e
      obtain ⟨s, hs, hl, hfd, _⟩ := (mem_kids h3 pre a).mp hb
      have hax : ∃ s', a = pre ++ x :: s' := by
        rcases List.mem_append.mp ha with ha | ha
        · cases c with
          | nil => exact ⟨[], by simpa [here] using ha⟩
          | cons _ _ _ => cases ha
        · obtain ⟨s', _, hl', _⟩ := (mem_kids h2 _ a).mp ha
          exact ⟨s', by simpa using hl'⟩
      obtain ⟨s', hs'⟩ := hax
      have : s = x :: s' := List.append_cancel_left (hl.symm.trans hs')
      rw [this, find, h1] at hfd
      cases hfd

/-- **Maximal paths**: `for_each_maximal_path` lists, each once, exactly the paths of the tree that are not extended by a longer path
of the tree. -/
theorem C69_maximal (ps : List (List α)) :
    (maxPaths (ofPaths ps)).Nodup ∧ ∀ l, l ∈ maxPaths (ofPaths ps) ↔
      find (ofPaths ps) l = true ∧ ∀ l', find (ofPaths ps) l' = true → l <+: l' → l' = l := by
  have hok := ofPaths_ok ps
  generalize hp : ofPaths ps = t at hok
  have hext : ∀ (l : List α), (∀ y, find t (l ++ [y]) = false) ↔ ∀ l', find t l' = true → l <+: l' → l' = l := by
    intro l
    constructor
    · intro h l' hl' hpre
      obtain ⟨s, rfl⟩ := hpre
      cases s with
      | nil => simp
      | cons y s =>
        have h1 : find t (l ++ [y]) = true := by
          rw [← hp, C69_find] at hl' ⊢
          rcases hl' with e | ⟨p, hpm, hpp⟩
          · simp at e
          · refine Or.inr ⟨p, hpm, List.IsPrefix.trans ?_ hpp⟩
            exact ⟨s, by simp⟩
        rw [h y] at h1; cases h1
    · intro h y
      cases hb : find t (l ++ [y]) with
      | false => rfl
      | true =>
        have := h _ hb ⟨[y], rfl⟩
        simp at this
  constructor
  · unfold maxPaths
    cases t with
    | nil => simp [here, kids]
    | cons x c r => simpa [here] using nodup_kids hok []
  · intro l
    rw [← hext]
    unfold maxPaths
    rw [List.mem_append, mem_kids hok]
    constructor
    · rintro (h | ⟨s, _, hl, a, b⟩)
      · cases t with
        | nil =>
          have : l = [] := by simpa [here] using h
          subst this
          refine ⟨rfl, fun y => ?_⟩
          rw [find_nil_tree]; simp
        | cons _ _ _ => cases h
      · rw [List.nil_append] at hl
        subst hl
        exact ⟨a, b⟩
    · rintro ⟨a, b⟩
      cases l with
      | nil =>
        left
        cases t with
        | nil => simp [here]
        | cons z d e =>
          have := b z
          rw [List.nil_append, find, branch, if_pos rfl] at this
          dsimp only at this
          rw [find] at this
          cases this
      | cons z s => exact Or.inr ⟨z :: s, by simp, rfl, a, b⟩

theorem app_nil : ∀ t : PT α, app t nil = t := by
  intro t
  induction t with
  | nil => rfl
  | cons x c r _ ih => rw [app, ih]

theorem setB_new {x : α} {c : PT α} : ∀ {t : PT α}, branch x t = none → setB x c t = app t (cons x c nil) := by
  intro t
  induction t with
  | nil => intro _; rfl
  | cons y d r _ ih =>
    intro h
    unfold branch at h
    split at h
    · cases h
    · rename_i hn
      rw [setB, if_neg hn, ih h, app]

theorem app_app : ∀ a b c : PT α, app (app a b) c = app a (app b c) := by
  intro a b c
  induction a with
  | nil => rfl
  | cons x d r _ ih => rw [app, app, ih, app]

theorem copyInto_eq : ∀ {t : PT α}, Ok t → ∀ {acc : PT α}, (∀ x, branch x t ≠ none → branch x acc = none) →
    copyInto t acc = app acc t := by
  intro t
  induction t with
  | nil => intro _ acc _; rw [app_nil]; rfl
  | cons x c r ihc ihr =>
    rintro ⟨h1, h2, h3⟩ acc h
    have hx : branch x acc = none := h x (by rw [branch, if_pos rfl]; simp)
    have hc : copyInto c nil = c := by rw [ihc h2 (fun _ _ => rfl)]; rfl
    rw [copyInto, hc, ihr h3, setB_new hx, app_app]
    · rfl
    · intro y hy
      have hne : y ≠ x := by rintro rfl; exact hy h1
      rw [branch_setB, if_neg hne]
      exact h y (by rw [branch, if_neg hne]; exact hy)

/-- The copy constructor gives an equal tree: with the iteration order of the original, the same tree. -/
theorem C69_copy (ps : List (List α)) : copyInto (ofPaths ps) nil = ofPaths ps := by
  rw [copyInto_eq (ofPaths_ok ps) (fun _ _ => rfl)]; rfl

/-- The example of the source: `add_path` of `1,2,3`, `1,2`, `1,4`. -/
def exT : PT Nat := ofPaths [[1, 2, 3], [1, 2], [1, 4]]

example : maxPaths exT = [[1, 2, 3], [1, 4]] ∧ find exT [1, 2] = true ∧ find exT [2] = false ∧ copyInto exT nil = exT := by decide

/-! ## depth first -/

/-- All non-empty paths below `pre`, parents first. -/
def all : PT α → List α → List (List α)
  | nil, _ => []
  | cons x c r, pre => (pre ++ [x]) :: (all c (pre ++ [x]) ++ all r pre)

theorem mem_all : ∀ {t : PT α}, Ok t → ∀ (pre l : List α), l ∈ all t pre ↔ ∃ s, s ≠ [] ∧ l = pre ++ s ∧ find t s = true := by
  intro t
  induction t with
  | nil =>
    intro _ pre l
    constructor
    · intro h; cases h
    · rintro ⟨s, h1, _, h3⟩
      rw [find_nil_tree] at h3
      exact absurd (by simpa using h3) h1
  | cons x c r ihc ihr =>
    rintro ⟨h1, h2, h3⟩ pre l
    have hf : ∀ (y : α) (s : List α), find (cons x c r) (y :: s) = if y = x then find c s else find r (y :: s) := by
      intro y s
      rw [find, branch]
      by_cases g : y = x
      · subst g; rw [if_pos rfl, if_pos rfl]
      · rw [if_neg g, if_neg g, find]
    rw [all, List.mem_cons, List.mem_append, ihc h2, ihr h3]
    constructor
    · rintro (h | ⟨s, _, hl, a⟩ | ⟨s, hs, hl, a⟩)
      · exact ⟨[x], by simp, h, by rw [hf, if_pos rfl, find]⟩
      · exact ⟨x :: s, by simp, by simpa using hl, by rw [hf, if_pos rfl]; exact a⟩
      · cases s with
        | nil => exact absurd rfl hs
        | cons z s =>
          have hz : z ≠ x := by
            rintro rfl
            rw [find, h1] at a; cases a
          exact ⟨z :: s, by simp, hl, by rw [hf, if_neg hz]; exact a⟩
    · rintro ⟨s, hs, hl, a⟩
      cases s with
      | nil => exact absurd rfl hs
      | cons z s =>
        rw [hf] at a
        by_cases hz : z = x
        · subst hz
          rw [if_pos rfl] at a
          cases s with
          | nil => exact Or.inl hl
          | cons w s => exact Or.inr (Or.inl ⟨w :: s, by simp, by simpa using hl, a⟩)
        · rw [if_neg hz] at a
          exact Or.inr (Or.inr ⟨z :: s, by simp, hl, a⟩)

theorem nodup_all : ∀ {t : PT α}, Ok t → ∀ pre : List α, (all t pre).Nodup := by
  intro t
  induction t with
  | nil => intro _ _; exact List.nodup_nil
  | cons x c r ihc ihr =>
    rintro ⟨h1, h2, h3⟩ pre
    have hr : ∀ s, pre ++ x :: s ∉ all r pre := by
      intro s h
      obtain ⟨s', _, hl, hfd⟩ := (mem_all h3 pre _).mp h
      rw [← List.append_cancel_left hl, find, h1] at hfd
      cases hfd
    rw [all, List.nodup_cons, List.nodup_append]
    refine ⟨?_, ihc h2 _, ihr h3 pre, ?_⟩
    · rw [List.mem_append]
      rintro (h | h)
      · obtain ⟨s, hs, hl, _⟩ := (mem_all h2 _ _).mp h
        exact hs (by simpa using hl)
      · exact hr [] h
    · rintro a ha b hb rfl
      obtain ⟨s, hs, hl, _⟩ := (mem_all h2 _ _).mp ha
      refine hr s ?_
      rw [show pre ++ x :: s = a by rw [hl]; simp]
      exact hb

/-- What one call of the visitor of `depth_first` says: the `k`-th path of `P` ends in the label and extends the path at the position
given, or has length one if that is `-1`. -/
def Says (P : List (List α)) (k : Nat) (e : α × Int) : Prop :=
  ∃ l, P[k]? = some (l ++ [e.1]) ∧ ((e.2 = -1 ∧ l = []) ∨ ∃ q : Nat, e.2 = q ∧ q < k ∧ P[q]? = some l)

theorem depthIx_says : ∀ (t : PT α) (A B : List (List α)) (pre : List α) (ix j : Int), ix + 1 + j = (A.length : Int) →
    ((ix = -1 ∧ pre = []) ∨ ∃ q : Nat, ix = q ∧ A[q]? = some pre) →
    (depthIx t ix j).2 = j + (all t pre).length ∧ (depthIx t ix j).1.length = (all t pre).length ∧
      ∀ (k : Nat) (e : α × Int), (depthIx t ix j).1[k]? = some e → Says (A ++ all t pre ++ B) (A.length + k) e := by
  intro t
  induction t with
  | nil =>
    intro A B pre ix j _ _
    exact ⟨by simp [depthIx, all], rfl, fun k e h => by simp [depthIx] at h⟩
  | cons x c r ihc ihr =>
    intro A B pre ix j hlen hpar
    obtain ⟨c1, c2, c3⟩ := ihc (A ++ [pre ++ [x]]) (all r pre ++ B) (pre ++ [x]) (ix + j + 1) 0
      (by rw [List.length_append, List.length_singleton]; omega)
      (Or.inr ⟨A.length, by omega, by rw [List.getElem?_append_right (Nat.le_refl _)]; simp⟩)
    obtain ⟨r1, r2, r3⟩ := ihr (A ++ (pre ++ [x]) :: all c (pre ++ [x])) B pre ix
      (j + ((depthIx c (ix + j + 1) 0).2 + 1))
      (by rw [List.length_append, List.length_cons, c1]; push_cast; omega)
      (hpar.imp_right (fun ⟨q, h1, h2⟩ => ⟨q, h1, by
        rw [List.getElem?_append_left (List.getElem?_eq_some_iff.mp h2).1]; exact h2⟩))
    rw [depthIx, all]
    dsimp only
    refine ⟨?_, ?_, ?_⟩
    · rw [r1, c1]; simp only [List.length_cons, List.length_append]; push_cast; omega
    · simp only [List.length_cons, List.length_append, c2, r2]
    · intro k e h
      have e1 : A ++ (pre ++ [x]) :: (all c (pre ++ [x]) ++ all r pre) ++ B =
        A ++ [pre ++ [x]] ++ all c (pre ++ [x]) ++ (all r pre ++ B) := by simp
      have e2 : A ++ (pre ++ [x]) :: (all c (pre ++ [x]) ++ all r pre) ++ B =
        A ++ (pre ++ [x]) :: all c (pre ++ [x]) ++ all r pre ++ B := by simp
      cases k with
      | zero =>
        simp only [List.getElem?_cons_zero, Option.some.injEq] at h
        subst h
        refine ⟨pre, ?_, ?_⟩
        · rw [Nat.add_zero, List.append_assoc, List.getElem?_append_right (Nat.le_refl _)]; simp
        · refine hpar.imp_right (fun ⟨q, h1, h2⟩ => ⟨q, h1, ?_, ?_⟩)
          · exact (List.getElem?_eq_some_iff.mp h2).1
          · rw [List.append_assoc, List.getElem?_append_left (List.getElem?_eq_some_iff.mp h2).1]; exact h2
      | succ k =>
        rw [List.getElem?_cons_succ] at h
        by_cases hk : k < (depthIx c (ix + j + 1) 0).1.length
        · rw [List.getElem?_append_left hk] at h
          have := c3 k e h
          rw [e1]
          rw [List.length_append, List.length_singleton] at this
          rw [show A.length + (k + 1) = A.length + 1 + k by omega]
          exact this
        · rw [List.getElem?_append_right (by omega)] at h
          have := r3 _ e h
          rw [e2]
          rw [List.length_append, List.length_cons] at this
          rw [show A.length + (k + 1) = A.length + ((all c (pre ++ [x])).length + 1) +
            (k - (depthIx c (ix + j + 1) 0).1.length) by omega]
          exact this

/-- **Depth first with positions** (called with `ix = -1`): the calls number the non-empty paths of the tree, each once, parents
first: call number `k` names the last element of path number `k` and the number of the path one shorter (`-1` at the top); the value
returned is their number. -/
theorem C118_depth_first_ix (ps : List (List α)) :
    ∃ P : List (List α), P.Nodup ∧ (∀ l, l ∈ P ↔ l ≠ [] ∧ find (ofPaths ps) l = true) ∧
      (depthIx (ofPaths ps) (-1) 0).2 = P.length ∧ (depthIx (ofPaths ps) (-1) 0).1.length = P.length ∧
      ∀ (k : Nat) (e : α × Int), (depthIx (ofPaths ps) (-1) 0).1[k]? = some e → Says P k e := by
  obtain ⟨h1, h2, h3⟩ := depthIx_says (ofPaths ps) [] [] [] (-1) 0 (by simp) (Or.inl ⟨rfl, rfl⟩)
  refine ⟨all (ofPaths ps) [], nodup_all (ofPaths_ok ps) [], fun l => ?_, by rw [h1]; simp, h2, fun k e h => ?_⟩
  · rw [mem_all (ofPaths_ok ps)]
    constructor
    · rintro ⟨s, hs, hl, hf⟩
      rw [List.nil_append] at hl
      subst hl
      exact ⟨hs, hf⟩
    · rintro ⟨hs, hf⟩
      exact ⟨l, hs, rfl, hf⟩
  · have := h3 k e h
    simpa using this

/-- Both depth first traversals name the labels in the same order. -/
theorem C118_labels (t : PT α) (ix j : Int) : (depthIx t ix j).1.map Prod.fst = depthFirst t := by
  induction t generalizing ix j with
  | nil => rfl
  | cons x c r ihc ihr => rw [depthIx, depthFirst]; dsimp only; rw [List.map_cons, List.map_append, ihc, ihr]

example : depthIx exT (-1) 0 = ([(1, -1), (2, 0), (3, 1), (4, 0)], 4) := by decide

/-- `str` of a tree with a path prints its maximal paths. -/
theorem C119_str (ps : List (List α)) (h : ∃ p ∈ ps, p ≠ []) : strLines (ofPaths ps) = .ok (maxPaths (ofPaths ps)) := by
  have hne : ∀ l ∈ maxPaths (ofPaths ps), l.length ≠ 0 := by
    intro l hl h0
    have hl0 := List.eq_nil_of_length_eq_zero h0
    subst hl0
    obtain ⟨p, hp, hp'⟩ := h
    exact hp' (((C69_maximal ps).2 []).mp hl |>.2 p ((C69_find ps p).mpr (Or.inr ⟨p, hp, List.prefix_rfl⟩)) List.nil_prefix)
  unfold strLines
  have : ∀ (L acc : List (List α)), (∀ l ∈ L, l.length ≠ 0) →
      Res.forM L acc (fun acc x => if x.length = 0 then .ub else .ok (acc ++ [x])) = .ok (acc ++ L) := by
    intro L
    induction L with
    | nil => intro acc _; simp
    | cons l L ih =>
      intro acc hL
      rw [Res.forM_cons, if_neg (hL l List.mem_cons_self), Res.ok_bind, ih _ (fun m hm => hL m (List.mem_cons_of_mem _ hm))]
      simp
  simpa using this _ [] hne

example : ∃ p ∈ [[1, 2, 3], [1, 2], [1, 4]], p ≠ ([] : List Nat) := ⟨_, List.mem_cons_self, by decide⟩

/-- `str` of a tree without a path is undefined: `x.size()-1` wraps around and the loop leaves the vector. -/
theorem C119_empty_fails : strLines (nil : PT Nat) = .ub ∧ strLines (ofPaths [[]] : PT Nat) = .ub := by decide

end Cnine.PT
