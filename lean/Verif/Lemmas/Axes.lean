import Mathlib.Algebra.Group.Basic
import Mathlib.Algebra.Group.Prod
import Mathlib.Algebra.Group.Nat.Defs
import Mathlib.Algebra.BigOperators.Group.List.Basic
import Mathlib.Data.List.Perm.Basic
import Mathlib.Tactic.Abel
import Mathlib.Tactic.Ring

/-!
# Cells reached by a list of axes

An axis is a pair `(d, s)`: extent `d` and stride `s` in an additive commutative monoid
(`Nat` for one view, `Nat × Nat` for two views walked together).
-/

namespace Cnine

variable {M : Type _} [AddCommMonoid M]

/-- All offsets reached by the given axes, in nested-loop order (first axis outermost). -/
def axCells : List (Nat × M) → List M
  | [] => [0]
  | (d, s) :: r => (List.range d).flatMap fun i => (axCells r).map fun c => i • s + c

theorem axCells_cons (d : Nat) (s : M) (r : List (Nat × M)) :
    axCells ((d, s) :: r) = (List.range d).flatMap fun i => (axCells r).map fun c => i • s + c := rfl

theorem flatMap_swap {α β γ} (l : List α) (k : List β) (f : α → β → List γ) :
    (l.flatMap fun a => k.flatMap fun b => f a b).Perm (k.flatMap fun b => l.flatMap fun a => f a b) := by
  induction l with
  | nil => simp
  | cons a l ih =>
    simp only [List.flatMap_cons]
    refine List.Perm.trans (List.Perm.append_left _ ih) ?_
    clear ih
    induction k with
    | nil => simp
    | cons b k ih =>
      simp only [List.flatMap_cons]
      rw [List.append_assoc, List.append_assoc]
      refine List.Perm.append_left _ ?_
      refine List.Perm.trans ?_ (List.Perm.append_left _ ih)
      rw [← List.append_assoc, ← List.append_assoc]
      exact List.Perm.append_right _ List.perm_append_comm

theorem axCells_perm {l k : List (Nat × M)} (h : l.Perm k) : (axCells l).Perm (axCells k) := by
  induction h with
  | nil => exact List.Perm.refl _
  | cons x _ ih =>
    obtain ⟨d, s⟩ := x
    simp only [axCells_cons]
    exact List.Perm.flatMap_left _ (fun i _ => ih.map _)
  | swap x y l =>
    obtain ⟨d, s⟩ := x
    obtain ⟨e, t⟩ := y
    simp only [axCells_cons, List.map_flatMap, List.map_map]
    refine List.Perm.trans (flatMap_swap _ _ _) ?_
    refine List.Perm.flatMap_left _ (fun i _ => List.Perm.flatMap_left _ (fun j _ => ?_))
    apply List.Perm.of_eq
    apply List.map_congr_left
    intro c _
    simp only [Function.comp]
    abel
  | trans _ _ ih₁ ih₂ => exact ih₁.trans ih₂

theorem range_mul (a b : Nat) :
    List.range (a * b) = (List.range a).flatMap fun i => (List.range b).map fun j => i * b + j := by
  induction a with
  | zero => simp
  | succ a ih =>
    rw [Nat.succ_mul, List.range_add, ih, List.range_succ, List.flatMap_append]
    simp

/-- Two axes, the outer one continuing where the inner one ends, are one longer axis. -/
theorem axCells_merge (d e : Nat) (s : M) (r : List (Nat × M)) :
    axCells ((e, d • s) :: (d, s) :: r) = axCells ((e * d, s) :: r) := by
  simp only [axCells_cons, range_mul, List.map_flatMap, List.flatMap_assoc, List.flatMap_map, List.map_map]
  refine List.flatMap_congr (fun i _ => List.flatMap_congr (fun j _ => ?_))
  apply List.map_congr_left
  intro c _
  simp only [Function.comp, add_nsmul, mul_nsmul', add_assoc]

theorem axCells_one (s : M) (r : List (Nat × M)) : axCells ((1, s) :: r) = axCells r := by
  simp [axCells_cons]

theorem axCells_zero (s : M) (r : List (Nat × M)) : axCells ((0, s) :: r) = [] := by
  simp [axCells_cons]

theorem axCells_length (l : List (Nat × M)) : (axCells l).length = (l.map Prod.fst).prod := by
  induction l with
  | nil => simp [axCells]
  | cons x l ih =>
    obtain ⟨d, s⟩ := x
    simp [axCells_cons, List.length_flatMap, ih]

theorem axCells_single (d s : Nat) : axCells [(d, s)] = (List.range d).map (· * s) := by
  simp only [axCells, List.map_cons, List.map_nil, Nat.add_zero]
  induction List.range d with
  | nil => rfl
  | cons a l ih => rw [List.flatMap_cons, ih]; simp

end Cnine
