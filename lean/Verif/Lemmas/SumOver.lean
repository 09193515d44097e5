import Verif.Lemmas.EinsumEval
import Mathlib.Algebra.BigOperators.Group.Finset.Basic
import Mathlib.Algebra.BigOperators.Ring.List
import Mathlib.Data.List.Perm.Basic

/-! # Sums over letters -/

namespace Cnine
namespace Einsum

variable {α : Type} {κ : Type} [DecidableEq κ]

theorem sumOver_append [AddCommMonoid α] (len : κ → Nat) (f : (κ → Nat) → α) (A B : List κ) (ρ : κ → Nat) :
    sumOver len f (A ++ B) ρ = sumOver len (sumOver len f B) A ρ := by
  induction A generalizing ρ with
  | nil => rfl
  | cons c A ih => simp only [List.cons_append, sumOver, ih]

theorem sumOver_congr [AddCommMonoid α] (len : κ → Nat) {f g : (κ → Nat) → α} (A : List κ) (ρ : κ → Nat)
    (h : ∀ σ, (∀ c ∈ A, σ c < len c) → (∀ c, c ∉ A → σ c = ρ c) → f σ = g σ) : sumOver len f A ρ = sumOver len g A ρ := by
  induction A generalizing ρ f g with
  | nil => exact h ρ (by simp) (fun _ _ => rfl)
  | cons c A ih =>
    simp only [sumOver]
    congr 1
    apply List.map_congr_left
    intro i hi
    have hi := List.mem_range.1 hi
    apply ih
    intro σ h1 h2
    by_cases hc : c ∈ A
    · refine h σ (fun d hd => ?_) (fun d hd => ?_)
      · rcases List.mem_cons.1 hd with rfl | hd
        · exact h1 d hc
        · exact h1 d hd
      · simp only [List.mem_cons, not_or] at hd
        rw [h2 d hd.2, upd, if_neg hd.1]
    · refine h σ (fun d hd => ?_) (fun d hd => ?_)
      · rcases List.mem_cons.1 hd with rfl | hd
        · rw [h2 d hc, upd, if_pos rfl]; exact hi
        · exact h1 d hd
      · simp only [List.mem_cons, not_or] at hd
        rw [h2 d hd.2, upd, if_neg hd.1]

theorem upd_comm (ρ : κ → Nat) {c d : κ} (h : c ≠ d) (i j : Nat) : upd (upd ρ c i) d j = upd (upd ρ d j) c i := by
  funext e
  simp only [upd]
  by_cases h1 : e = d
  · subst h1; simp [Ne.symm h]
  · simp [h1]

theorem list_sum_comm [AddCommMonoid α] {ι κ : Type _} (l : List ι) (k : List κ) (f : ι → κ → α) :
    (l.map fun i => (k.map fun j => f i j).sum).sum = (k.map fun j => (l.map fun i => f i j).sum).sum := by
  induction l with
  | nil => simp
  | cons a l ih => simp only [List.map_cons, List.sum_cons, ih, List.sum_map_add]

theorem sumOver_perm [AddCommMonoid α] (len : κ → Nat) (f : (κ → Nat) → α) {A B : List κ} (h : A.Perm B)
    (hA : A.Nodup) (ρ : κ → Nat) : sumOver len f A ρ = sumOver len f B ρ := by
  induction h generalizing ρ with
  | nil => rfl
  | cons c _ ih => simp only [sumOver, fun ρ => ih (List.nodup_cons.1 hA).2 ρ]
  | swap c d l =>
    have hne : d ≠ c := by
      rintro rfl
      simp at hA
    simp only [sumOver]
    rw [list_sum_comm]
    simp only [upd_comm ρ hne]
  | trans p q ih1 ih2 => rw [ih1 hA, ih2 (p.nodup_iff.1 hA)]

theorem sumOver_mul_left [NonUnitalNonAssocSemiring α] (len : κ → Nat) (f g : (κ → Nat) → α) (A : List κ)
    (ρ : κ → Nat) (hg : ∀ σ, (∀ c, c ∉ A → σ c = ρ c) → g σ = g ρ) :
    g ρ * sumOver len f A ρ = sumOver len (fun σ => g σ * f σ) A ρ := by
  induction A generalizing ρ with
  | nil => rfl
  | cons c A ih =>
    simp only [sumOver]
    rw [← List.sum_map_mul_left]
    congr 1
    apply List.map_congr_left
    intro i _
    have hu : g (upd ρ c i) = g ρ := hg _ fun d hd => by
      simp only [List.mem_cons, not_or] at hd
      rw [upd, if_neg hd.1]
    rw [← hu, ih]
    intro σ hσ
    rw [hu]
    apply hg
    intro d hd
    simp only [List.mem_cons, not_or] at hd
    rw [hσ d hd.2, upd, if_neg hd.1]

theorem sumOver_mul_right [NonUnitalNonAssocSemiring α] (len : κ → Nat) (f g : (κ → Nat) → α) (A : List κ)
    (ρ : κ → Nat) (hg : ∀ σ, (∀ c, c ∉ A → σ c = ρ c) → g σ = g ρ) :
    sumOver len f A ρ * g ρ = sumOver len (fun σ => f σ * g σ) A ρ := by
  induction A generalizing ρ with
  | nil => rfl
  | cons c A ih =>
    simp only [sumOver]
    rw [← List.sum_map_mul_right]
    congr 1
    apply List.map_congr_left
    intro i _
    have hu : g (upd ρ c i) = g ρ := hg _ fun d hd => by
      simp only [List.mem_cons, not_or] at hd
      rw [upd, if_neg hd.1]
    rw [← hu, ih]
    intro σ hσ
    rw [hu]
    apply hg
    intro d hd
    simp only [List.mem_cons, not_or] at hd
    rw [hσ d hd.2, upd, if_neg hd.1]

/-- A sum over all indices of a tensor labelled by `s` whose terms vanish off the (generalised) diagonal is
the sum over the letters of `s`. -/
theorem sum_diag [AddCommMonoid α] (len : κ → Nat) (s : List κ) (g : List Nat → α) (ρ : κ → Nat)
    (h0 : ∀ ix, InRange ix (s.map len) → (∀ σ, Fits len s σ → ix ≠ s.map σ) → g ix = 0) :
    ((allIndices (s.map len)).map g).sum = sumOver len (fun σ => g (s.map σ)) (letters s) ρ := by
  have hnd := letters_nodup s
  have hm : ∀ c ∈ s, c ∈ letters s := fun c hc => mem_letters.2 hc
  have e1 : sumOver len (fun σ => g (s.map σ)) (letters s) ρ =
      ((allIndices ((letters s).map len)).map fun u => g (s.map (asg (letters s) u))).sum := by
    rw [sumOver_eq len _ _ hnd]
    congr 1
    apply List.map_congr_left
    intro u _
    congr 1
    apply List.map_congr_left
    intro c hc
    rw [if_pos (hm c hc)]
  have hfit : ∀ u, InRange u ((letters s).map len) → Fits len s (asg (letters s) u) := fun u hu c hc =>
    asg_fits hu c (hm c hc)
  rw [e1]
  have e2 : ((allIndices ((letters s).map len)).map fun u => g (s.map (asg (letters s) u))) =
      ((allIndices ((letters s).map len)).map fun u => s.map (asg (letters s) u)).map g := by
    rw [List.map_map]; rfl
  have hinj : ((allIndices ((letters s).map len)).map fun u => s.map (asg (letters s) u)).Nodup := by
    apply List.Nodup.map_on _ (allIndices_nodup _)
    intro u hu v hv e
    have hu := (mem_allIndices.1 hu).length
    have hv := (mem_allIndices.1 hv).length
    simp only [List.length_map] at hu hv
    rw [← map_asg (letters s) u hnd hu, ← map_asg (letters s) v hnd hv]
    exact List.map_congr_left fun c hc => map_congr_mem e c (mem_letters.1 hc)
  rw [e2, ← List.sum_toFinset g hinj, ← List.sum_toFinset g (allIndices_nodup _)]
  symm
  apply Finset.sum_subset
  · intro ix hix
    rw [List.mem_toFinset, List.mem_map] at hix
    obtain ⟨u, hu, rfl⟩ := hix
    rw [List.mem_toFinset, mem_allIndices]
    exact inRange_map (hfit u (mem_allIndices.1 hu))
  · intro ix hix hn
    rw [List.mem_toFinset, mem_allIndices] at hix
    apply h0 ix hix
    rintro σ hσ rfl
    apply hn
    rw [List.mem_toFinset, List.mem_map]
    refine ⟨(letters s).map σ, mem_allIndices.2 (inRange_map fun c hc => hσ c (mem_letters.1 hc)), ?_⟩
    exact map_asg_eq _ _ hm σ

/-- The function of an assignment depends only on the listed letters. -/
def DepOn {β : Type _} (s : List κ) (g : (κ → Nat) → β) : Prop := ∀ σ σ', (∀ c ∈ s, σ c = σ' c) → g σ = g σ'

theorem sumOver_dep [AddCommMonoid α] {len : κ → Nat} {s : List κ} {g : (κ → Nat) → α} (hg : DepOn s g) (B : List κ) :
    DepOn s (sumOver len g B) := by
  induction B with
  | nil => exact hg
  | cons b B ih =>
    intro σ σ' h
    simp only [sumOver]
    congr 1
    apply List.map_congr_left
    intro i _
    apply ih
    intro c hc
    simp only [upd, h c hc]

theorem sumOver_len_congr [AddCommMonoid α] {len len' : κ → Nat} (f : (κ → Nat) → α) (A : List κ) (ρ : κ → Nat)
    (h : ∀ c ∈ A, len c = len' c) : sumOver len f A ρ = sumOver len' f A ρ := by
  induction A generalizing ρ with
  | nil => rfl
  | cons c A ih =>
    simp only [sumOver, h c (by simp), fun ρ => ih ρ fun c hc => h c (by simp [hc])]

/-- A product of two sums over different letters. -/
theorem sumOver_prod [NonUnitalNonAssocSemiring α] (len : κ → Nat) (f g : (κ → Nat) → α) {s s' : List κ} (hf : DepOn s f)
    (hg : DepOn s' g) (A B : List κ) (hA : ∀ c ∈ A, c ∉ s') (hB : ∀ c ∈ B, c ∉ s) (ρ : κ → Nat) :
    sumOver len f A ρ * sumOver len g B ρ = sumOver len (fun σ => f σ * g σ) (A ++ B) ρ := by
  rw [sumOver_append, sumOver_mul_right len f (sumOver len g B) A ρ fun σ hσ =>
    sumOver_dep hg B σ ρ fun c hc => hσ c fun h => hA c h hc]
  apply sumOver_congr
  intro σ _ _
  exact sumOver_mul_left len g f B σ fun τ hτ => hf τ σ fun c hc => hτ c fun h => hB c h hc

end Einsum
end Cnine
