import Verif.Model.Batched
import Verif.Props.Threads

/-!
# C506, C507: tensors with batches
-/

namespace Cnine

variable {σ : Type}

open Batched TGroup

namespace Batched

/-- What a `MultiLoop` does. -/
theorem multi {f : Nat → σ → σ} {n : Nat} {T : Int} {m m' : σ} {l : List Nat} (h : MultiLoopRuns f n false T m m' l) :
    l.Perm (List.range n) ∧ m' = l.foldl (fun m t => f t m) m := by
  cases h with
  | sequential _ => exact ⟨List.Perm.refl _, rfl⟩
  | parallel s _ hr hd => exact ⟨by simpa using (C52_done hr hd).1, (C52_at_most_once hr).2⟩

/-- The effect of calls, one after the other. -/
def apply (lam : Nat → Nat → Nat → σ → σ) (calls : List (Nat × Nat × Nat)) (m : σ) : σ := calls.foldl (fun m c => lam c.1 c.2.1 c.2.2 m) m

end Batched

/-- With one batch here, or as many here as there, each batch is handled once, with the slices that belong to it. -/
theorem C506_each {lam : Nat → Nat → Nat → σ → σ} {B X : Nat} {T : Int} {m m' : σ} {calls : List (Nat × Nat × Nat)} (h : ForEach lam B X T m m' calls) (hb : B = 1 ∨ X = B) :
    calls.Perm ((List.range X).map fun b => (b, if B = 1 then 0 else b, b)) ∧ m' = apply lam calls m := by
  cases h with
  | one h1 => subst h1; exact ⟨by simp, by simp [apply, List.foldl_map]⟩
  | xone m1 m2 l1 l2 h1 h2 _ _ => exact absurd (hb.elim id fun e => e ▸ h2) h1
  | both m1 l1 h1 h2 hm =>
    obtain ⟨p, e⟩ := multi hm
    have hX : X = B := hb.resolve_left h1
    subst hX
    exact ⟨by simpa [h1] using p.map fun b => (b, b, b), by rw [e, apply, List.foldl_map]⟩

/-- The number of batches of the result. -/
theorem C506_dominant (xb yb : Int) : (∀ b, dominant xb yb = .ok b ↔ (xb = b ∨ xb = 1) ∧ (yb = b ∨ yb = 1) ∧ (b = xb ∨ b = yb)) ∧
    (dominant xb yb = .throw ↔ xb ≠ yb ∧ xb ≠ 1 ∧ yb ≠ 1) ∧ dominant xb yb = dominant yb xb := by
  unfold dominant
  refine ⟨fun b => ?_, ?_, ?_⟩
  · split
    · rename_i h; constructor
      · intro e; cases e; omega
      · intro e; congr 1; omega
    · split
      · constructor
        · intro e; cases e; omega
        · intro e; congr 1; omega
      · split
        · constructor
          · intro e; cases e; omega
          · intro e; congr 1; omega
        · constructor
          · intro e; cases e
          · intro e; omega
  · split <;> [simp [*]; (split <;> [simp [*]; (split <;> simp [*])])]
  · by_cases h : xb = yb
    · simp [h]
    · rw [if_neg h, if_neg (Ne.symm h)]
      by_cases h1 : xb = 1 <;> by_cases h2 : yb = 1 <;> simp [h1, h2] <;> omega

example : ForEach (fun b r x m => m ++ [(b, r, x)]) 1 2 1 [] [(0, 0, 0), (1, 0, 1)] [(0, 0, 0), (1, 0, 1)] := .one rfl
example : dominant 3 1 = .ok 3 ∧ dominant 3 2 = .throw := ⟨rfl, rfl⟩

/-- With several batches here and one there the function is called twice for each batch, and the second time with slices of `x` that do not exist. -/
theorem C507_twice_fails {lam : Nat → Nat → Nat → σ → σ} {B : Nat} {T : Int} {m m' : σ} {calls : List (Nat × Nat × Nat)} (h : ForEach lam B 1 T m m' calls) (hb : 2 ≤ B) :
    calls.length = 2 * B ∧ ∀ b, 1 ≤ b → b < B → (b, b, b) ∈ calls := by
  cases h with
  | one h1 => omega
  | xone m1 m2 l1 l2 h1 h2 g1 g2 =>
    obtain ⟨p1, _⟩ := multi g1
    obtain ⟨p2, _⟩ := multi g2
    refine ⟨by simp [p1.length_eq, p2.length_eq]; omega, fun b _ h4 => List.mem_append.2 (.inr (List.mem_map.2 ⟨b, p2.mem_iff.2 (List.mem_range.2 h4), rfl⟩))⟩
  | both m1 l1 h1 h2 hm => exact absurd rfl h2

/-- What is right: each batch is also handled with the one slice of `x`, before the others. -/
theorem C507_first_partial {lam : Nat → Nat → Nat → σ → σ} {B : Nat} {T : Int} {m m' : σ} {calls : List (Nat × Nat × Nat)} (h : ForEach lam B 1 T m m' calls) (hb : 2 ≤ B) :
    (calls.take B).Perm ((List.range B).map fun b => (b, b, 0)) := by
  cases h with
  | one h1 => omega
  | xone m1 m2 l1 l2 h1 h2 g1 g2 =>
    obtain ⟨p1, _⟩ := multi g1
    have : (l1.map fun b => (b, b, 0)).length = B := by simp [p1.length_eq]
    rw [List.take_left' this]
    exact p1.map _
  | both m1 l1 h1 h2 hm => exact absurd rfl h2

/-- Adding the slices: 5 added to 0 and 0 should give 5 and 5; the second round adds what stands after the 5, here 7, to the second number (and 5 to the first once more). -/
theorem C507_sum_fails : ∃ calls, ForEach (fun _ r x (m : List Int) => m.set r (m.getD r 0 + m.getD (2 + x) 0)) 2 1 1 [0, 0, 5, 7] [10, 12, 5, 7] calls :=
  ⟨_, .xone _ _ _ _ (by decide) rfl (.sequential (.inr (by decide))) (.sequential (.inr (by decide)))⟩

example : ∃ calls, ForEach (fun _ _ _ (m : Nat) => m + 1) 2 1 1 0 4 calls := ⟨_, .xone _ _ _ _ (by decide) rfl (.sequential (.inr (by decide))) (.sequential (.inr (by decide)))⟩

end Cnine
