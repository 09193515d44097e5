import Verif.Model.LabeledTree
import Verif.Props.PrefixTree
import Verif.Props.Pool2
import Verif.Props.Graph
import Mathlib.Data.List.Perm.Basic
import Mathlib.Data.List.Dedup

/-! # C125–C127: labelled trees and forests, trees in an array -/

namespace Cnine

namespace PT

variable {α : Type} [DecidableEq α]

omit [DecidableEq α] in
/-- Specification: the labels along a path of a forest that starts at a root. -/
inductive Walk : PT α → List α → Prop
  | stop (t : PT α) : Walk t []
  | down {x : α} {c r : PT α} {p : List α} (h : Walk c p) : Walk (cons x c r) (x :: p)
  | right {x : α} {c r : PT α} {p : List α} (h : Walk r p) : Walk (cons x c r) p

omit [DecidableEq α] in
/-- Specification: the labels along a path of a forest from a root to a leaf. -/
inductive LeafWalk : PT α → List α → Prop
  | leaf {x : α} {r : PT α} : LeafWalk (cons x nil r) [x]
  | down {x : α} {c r : PT α} {p : List α} (h : LeafWalk c p) : LeafWalk (cons x c r) (x :: p)
  | right {x : α} {c r : PT α} {p : List α} (h : LeafWalk r p) : LeafWalk (cons x c r) p

omit [DecidableEq α] in
theorem LeafWalk.ne_nil {t : PT α} {p : List α} (h : LeafWalk t p) : p ≠ [] := by
  induction h with
  | leaf => simp
  | down => simp
  | right _ ih => exact ih

theorem containsSet_iff : ∀ (t : PT α) (s : List α), s.Nodup → (containsSet t s = true ↔ ∃ p, p ≠ [] ∧ Walk t p ∧ p.Perm s) := by
  intro t
  induction t with
  | nil =>
    intro s _
    constructor
    · intro h; cases h
    · rintro ⟨p, h1, h2, _⟩; cases h2; exact absurd rfl h1
  | cons x c r ihc ihr =>
    intro s hs
    unfold containsSet
    rw [Bool.or_eq_true, ihr s hs]
    constructor
    · rintro (h | ⟨p, h1, h2, h3⟩)
      · by_cases hx : x ∈ s
        · rw [if_pos hx] at h
          by_cases hl : s.length = 1
          · obtain ⟨a, rfl⟩ := List.length_eq_one_iff.mp hl
            rw [List.mem_singleton] at hx
            exact ⟨[x], by simp, .down (.stop _), by rw [hx]⟩
          · rw [if_neg hl, ihc _ (hs.erase x)] at h
            obtain ⟨p, _, h2, h3⟩ := h
            exact ⟨x :: p, by simp, .down h2, (h3.cons x).trans (List.perm_cons_erase hx).symm⟩
        · rw [if_neg hx] at h; cases h
      · exact ⟨p, h1, .right h2, h3⟩
    · rintro ⟨p, h1, h2, h3⟩
      cases h2 with
      | stop => exact absurd rfl h1
      | right h => exact Or.inr ⟨p, h1, h, h3⟩
      | down h =>
        rename_i p
        left
        have hx : x ∈ s := h3.subset List.mem_cons_self
        rw [if_pos hx]
        by_cases hl : s.length = 1
        · rw [if_pos hl]
        · rw [if_neg hl, ihc _ (hs.erase x)]
          refine ⟨p, ?_, h, (List.cons_perm_iff_perm_erase.mp h3).2⟩
          rintro rfl
          exact hl (by rw [← h3.length_eq]; rfl)

/-- **Forests**: the test for a vector succeeds exactly when the labels along some path from a root are, in some order, the
distinct entries of the vector. -/
theorem C125_forest (t : PT α) (x : List α) : containsVec t x = true ↔ ∃ p, p ≠ [] ∧ Walk t p ∧ p.Perm x.dedup :=
  containsSet_iff t _ (List.nodup_dedup x)

example : containsVec (cons 1 (cons 2 (cons 3 nil nil) (cons 4 nil nil)) nil) [2, 1, 3, 2] = true := by decide

theorem mem_kids_iff : ∀ (t : PT α) (pre l : List α), l ∈ kids t pre ↔ ∃ p, LeafWalk t p ∧ l = pre ++ p := by
  intro t
  induction t with
  | nil =>
    intro pre l
    constructor
    · intro h; cases h
    · rintro ⟨p, h, _⟩; cases h
  | cons x c r ihc ihr =>
    intro pre l
    unfold kids
    rw [List.mem_append, List.mem_append, ihc, ihr]
    constructor
    · rintro ((h | ⟨p, h1, h2⟩) | ⟨p, h1, h2⟩)
      · cases c with
        | nil => exact ⟨[x], .leaf, by simpa [here] using h⟩
        | cons => cases h
      · exact ⟨x :: p, .down h1, by rw [h2]; simp⟩
      · exact ⟨p, .right h1, h2⟩
    · rintro ⟨p, h1, h2⟩
      cases h1 with
      | leaf => left; left; simp [here, h2]
      | down h => left; right; exact ⟨_, h, by rw [h2]; simp⟩
      | right h => right; exact ⟨p, h, h2⟩

end PT

namespace LTree

variable {α : Type} [DecidableEq α]

/-- The tree with a root and the given paths below it. -/
def ofPaths (x : α) (ps : List (List α)) : LTree α := ps.foldl addPath ⟨x, .nil⟩

theorem ofPaths_kids (x : α) (ps : List (List α)) : ofPaths x ps = ⟨x, PT.ofPaths ps⟩ := by
  unfold ofPaths PT.ofPaths
  generalize (PT.nil : PT α) = t
  induction ps generalizing t with
  | nil => rfl
  | cons p ps ih => exact ih _

/-- **Rooted paths**: after adding paths below the root, the tree contains exactly their prefixes. -/
theorem C125_contains (x : α) (ps : List (List α)) (l : List α) :
    (ofPaths x ps).contains l = true ↔ l = [] ∨ ∃ p ∈ ps, l <+: p := by
  rw [ofPaths_kids]
  exact PT.C69_find ps l

/-- **Paths to the leaves**: `for_each_maximal_path` visits exactly the paths from the root to a leaf. -/
theorem C125_maximal (t : LTree α) (l : List α) : l ∈ t.maxPaths ↔ PT.LeafWalk t.forest l := by
  unfold maxPaths
  rw [PT.mem_kids_iff]
  simp

/-- The test for a set of labels on a single tree. -/
theorem C125_tree (t : LTree α) (x : List α) : t.containsVec x = true ↔ ∃ p, p ≠ [] ∧ PT.Walk t.forest p ∧ p.Perm x.dedup :=
  PT.C125_forest _ _

/-- **Repeated labels**: `push_back` allows two children with the same label; `contains` then only looks below the first. -/
theorem C125_repeated_fails : PT.Walk (((⟨0, .nil⟩ : LTree Nat).pushBack ⟨1, .nil⟩).pushBack ⟨1, .cons 2 .nil .nil⟩).kids [1, 2] ∧
    (((⟨0, .nil⟩ : LTree Nat).pushBack ⟨1, .nil⟩).pushBack ⟨1, .cons 2 .nil .nil⟩).contains [1, 2] = false :=
  ⟨.right (.down (.down (.stop _))), by decide⟩

/-- Without repeated labels among siblings `contains` is exact. -/
theorem C125_distinct (t : LTree α) (h : PT.Ok t.kids) (l : List α) : t.contains l = true ↔ PT.Walk t.kids l := by
  obtain ⟨_, t⟩ := t
  unfold contains
  dsimp only at h ⊢
  have hb : ∀ (t : PT α) (x : α) (c : PT α) (p : List α), PT.branch x t = some c → PT.Walk c p → PT.Walk t (x :: p) := by
    intro t x c p
    induction t with
    | nil => intro h; cases h
    | cons y d r _ ihr =>
      intro h hc
      unfold PT.branch at h
      split at h
      · rename_i e; injection h with h; subst h; subst e; exact .down hc
      · exact .right (ihr h hc)
  have hn : ∀ (t : PT α) (x : α) (p : List α), PT.branch x t = none → ¬ PT.Walk t (x :: p) := by
    intro t x p
    induction t with
    | nil => intro _ h; cases h
    | cons y d r _ ihr =>
      intro h hc
      unfold PT.branch at h
      split at h
      · cases h
      · rename_i e
        cases hc with
        | down => exact e rfl
        | right h' => exact ihr h h'
  have hw : ∀ {t : PT α}, PT.Ok t → ∀ (x : α) (c : PT α) (p : List α), PT.branch x t = some c → PT.Walk t (x :: p) → PT.Walk c p := by
    intro t
    induction t with
    | nil => intro _ x c p h; cases h
    | cons y d r _ ihr =>
      rintro ⟨h1, h2, h3⟩ x c p h hc
      unfold PT.branch at h
      split at h
      · rename_i e
        subst e
        injection h with h
        subst h
        cases hc with
        | down h' => exact h'
        | right h' => exact absurd h' (hn _ _ _ h1)
      · rename_i e
        cases hc with
        | down => exact absurd rfl e
        | right h' => exact ihr h3 x c p h h'
  induction l generalizing t with
  | nil => exact ⟨fun _ => .stop _, (fun _ => by cases t <;> rfl)⟩
  | cons x p ih =>
    rw [PT.find]
    cases e : PT.branch x t with
    | none => exact ⟨(fun h => by cases h), fun h => absurd h (hn _ _ _ e)⟩
    | some c =>
      dsimp only
      exact (ih c (h.branch e)).trans ⟨hb t x c p e, hw h x c p e⟩

/-! ## Traversal with positions -/

omit [DecidableEq α] in
theorem ixLoop_len : ∀ (t : PT α) (ix j : Int), (PT.ixLoop t ix j).2 = j + (PT.ixLoop t ix j).1.length := by
  intro t
  induction t with
  | nil => intro ix j; simp [PT.ixLoop]
  | cons x c r ihc ihr =>
    intro ix j
    unfold PT.ixLoop
    dsimp only
    rw [ihr, ihc, List.length_cons, List.length_append]
    push_cast
    omega

/-- **Traversal**: the labels in the order of the depth-first traversal. -/
theorem C126_labels (t : LTree α) : t.depthIx.map Prod.fst = t.depthFirst := by
  unfold depthIx depthFirst
  rw [List.map_cons]
  congr 1
  have : ∀ (t : PT α) (ix j : Int), (PT.ixLoop t ix j).1.map Prod.fst = t.depthFirst := by
    intro t
    induction t with
    | nil => intro ix j; rfl
    | cons x c r ihc ihr =>
      intro ix j
      unfold PT.ixLoop PT.depthFirst
      dsimp only
      rw [List.map_cons, List.map_append, ihc, ihr]
  exact this _ _ _

omit [DecidableEq α] in
/-- Specification: the pairs (label of the parent, label) of the trees in a forest hung below `p`, in depth-first order. -/
def links : α → PT α → List (α × α)
  | _, .nil => []
  | p, .cons x c r => (p, x) :: (links x c ++ links p r)

omit [DecidableEq α] in
theorem links_length : ∀ (t : PT α) (p : α) (ix j : Int), (links p t).length = (PT.ixLoop t ix j).1.length := by
  intro t
  induction t with
  | nil => intro p ix j; rfl
  | cons x c r ihc ihr =>
    intro p ix j
    unfold links PT.ixLoop
    dsimp only
    rw [List.length_cons, List.length_cons, List.length_append, List.length_append, ihc, ihr]

theorem ixLoop_says : ∀ (t : PT α) (A B : List (α × Int)) (p : α) (ix j : Int), 0 ≤ ix → ix + j = (A.length : Int) → 1 ≤ j →
    (∃ q, A[ix.toNat]? = some (p, q)) →
    ∀ (k : Nat) (e : α × Int), (PT.ixLoop t ix j).1[k]? = some e →
      0 ≤ e.2 ∧ e.2 < A.length + k ∧ ∃ y z, (A ++ (PT.ixLoop t ix j).1 ++ B)[e.2.toNat]? = some (y, z) ∧ (links p t)[k]? = some (y, e.1) := by
  intro t
  induction t with
  | nil => intro A B p ix j _ _ _ _ k e h; simp [PT.ixLoop] at h
  | cons x c r ihc ihr =>
    intro A B p ix j h0 hA hj ⟨q, hq⟩ k e h
    unfold PT.ixLoop at h ⊢
    unfold links
    dsimp only at h ⊢
    have hlen := ixLoop_len c (ix + j) 1
    have hlc := links_length c x (ix + j) 1
    generalize hR1 : PT.ixLoop c (ix + j) 1 = R1 at h hlen hlc ⊢
    generalize hR2 : PT.ixLoop r ix (j + R1.2) = R2 at h ⊢
    have hqA : ix.toNat < A.length := (List.getElem?_eq_some_iff.mp hq).1
    cases k with
    | zero =>
      rw [List.getElem?_cons_zero] at h
      injection h with h
      subst h
      dsimp only
      refine ⟨h0, by omega, p, q, ?_, by rw [List.getElem?_cons_zero]⟩
      rw [List.append_assoc, List.getElem?_append_left hqA]
      exact hq
    | succ k =>
      rw [List.getElem?_cons_succ] at h
      by_cases hk : k < R1.1.length
      · rw [List.getElem?_append_left hk] at h
        have := ihc (A ++ [(x, ix)]) (R2.1 ++ B) x (ix + j) 1 (by omega) (by simp; omega) (by omega)
          ⟨ix, by rw [List.getElem?_append_right (by omega)]; simp [hA]⟩ k e (by rw [hR1]; exact h)
        obtain ⟨g1, g2, y, z, g3, g4⟩ := this
        rw [hR1] at g3
        refine ⟨g1, ?_, y, z, ?_, ?_⟩
        · rw [List.length_append, List.length_singleton] at g2; push_cast at g2 ⊢; omega
        · rw [← g3]; congr 1; simp
        · rw [List.getElem?_cons_succ, List.getElem?_append_left (by omega)]; exact g4
      · rw [List.getElem?_append_right (by omega)] at h
        have := ihr (A ++ (x, ix) :: R1.1) B p ix (j + R1.2) h0 (by simp; omega) (by omega)
          ⟨q, by rw [List.getElem?_append_left hqA]; exact hq⟩ (k - R1.1.length) e (by rw [hR2]; exact h)
        obtain ⟨g1, g2, y, z, g3, g4⟩ := this
        rw [hR2] at g3
        refine ⟨g1, ?_, y, z, ?_, ?_⟩
        · rw [List.length_append, List.length_cons] at g2; push_cast at g2 ⊢; omega
        · rw [← g3]; congr 1; simp
        · rw [List.getElem?_cons_succ, List.getElem?_append_right (by omega), hlc]; exact g4

/-- **Positions of the parents**: the root comes first with position −1; entry `k + 1` of the traversal is the `k`-th link of the tree
in depth-first order, and its second component is the position, before its own, of an entry with the label of the parent. -/
theorem C126_parents (t : LTree α) : t.depthIx[0]? = some (t.label, -1) ∧
    ∀ (k : Nat) (x : α) (q : Int), t.depthIx[k + 1]? = some (x, q) → 0 ≤ q ∧ q < (k : Int) + 1 ∧
      ∃ y z, t.depthIx[q.toNat]? = some (y, z) ∧ (links t.label t.kids)[k]? = some (y, x) := by
  refine ⟨rfl, fun k x q h => ?_⟩
  unfold depthIx at h ⊢
  rw [List.getElem?_cons_succ] at h
  obtain ⟨h1, h2, y, z, h3, h4⟩ := ixLoop_says t.kids [(t.label, -1)] [] t.label 0 1 (by omega) (by simp) (by omega) ⟨-1, rfl⟩ k _ h
  refine ⟨h1, by simp at h2; omega, y, z, ?_, h4⟩
  rw [← h3]; simp

theorem C126_length (t : LTree α) : t.depthIx.length = (links t.label t.kids).length + 1 := by
  unfold depthIx
  rw [List.length_cons, links_length t.kids t.label 0 1]

example : (⟨0, .cons 1 (.cons 2 .nil .nil) (.cons 3 (.cons 4 .nil .nil) .nil)⟩ : LTree Nat).depthIx =
    [(0, -1), (1, 0), (2, 1), (3, 0), (4, 3)] := by decide

end LTree

end Cnine

