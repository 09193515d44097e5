import Verif.Model.Banks
import Verif.Lemmas.UMap
import Verif.Props.Observers
import Mathlib.Logic.Function.Iterate

/-! # C57, C107, C108: object banks and caches -/

namespace Cnine

/-! ## Specification -/

/-- Specification of a bank: the objects stored and the number of calls of the maker. -/
structure BSpec (K ω : Type _) where
  obj : K → Option ω
  calls : Nat

namespace BSpec

variable {K ω ρ : Type _} [DecidableEq K]

omit [DecidableEq K] in
/-- Nothing stored. -/
def empty : BSpec K ω := ⟨fun _ => none, 0⟩

/-- One event: a lookup returns the stored object, otherwise it makes one and stores it, unless the maker throws; an insertion
keeps what is stored; a death removes the objects of the keys it concerns. -/
def step (hits : ρ → K → Bool) (mk : Nat → K → Option ω) (s : BSpec K ω) : BEv K ω ρ → Option ω × BSpec K ω
  | .get k =>
    match s.obj k with
    | some x => (some x, s)
    | none => (mk s.calls k, ⟨fun j => if j = k then mk s.calls k else s.obj j, s.calls + 1⟩)
  | .put k v => (none, ⟨fun j => if j = k then some ((s.obj k).getD v) else s.obj j, s.calls⟩)
  | .kill r => (none, ⟨fun j => if hits r j then none else s.obj j, s.calls⟩)

/-- A history: the results and the final state. -/
def run (hits : ρ → K → Bool) (mk : Nat → K → Option ω) (s : BSpec K ω) : List (BEv K ω ρ) → List (Option ω) × BSpec K ω
  | [] => ([], s)
  | e :: es => ((s.step hits mk e).1 :: ((s.step hits mk e).2.run hits mk es).1, ((s.step hits mk e).2.run hits mk es).2)

end BSpec

/-- Running a bank of the model. -/
def bankRun {B K ω ρ : Type} (step : B → BEv K ω ρ → Res (Option ω × B)) (b : B) : List (BEv K ω ρ) → Res (List (Option ω) × B)
  | [] => .ok ([], b)
  | e :: es => do
    let r ← step b e
    let q ← bankRun step r.2 es
    .ok (r.1 :: q.1, q.2)

theorem bankRun_sim {B K ω ρ : Type} [DecidableEq K] {step : B → BEv K ω ρ → Res (Option ω × B)} {hits : ρ → K → Bool}
    {mk : Nat → K → Option ω} {R : B → BSpec K ω → Prop} {P : BEv K ω ρ → Prop}
    (h : ∀ b s e, R b s → P e → ∃ b', step b e = .ok ((s.step hits mk e).1, b') ∧ R b' (s.step hits mk e).2) :
    ∀ (es : List (BEv K ω ρ)) (b : B) (s : BSpec K ω), R b s → (∀ e ∈ es, P e) →
      ∃ b', bankRun step b es = .ok ((s.run hits mk es).1, b') ∧ R b' (s.run hits mk es).2 := by
  intro es
  induction es with
  | nil => intro b s hR _; exact ⟨b, rfl, hR⟩
  | cons e es ih =>
    intro b s hR hP
    obtain ⟨b1, e1, h1⟩ := h b s e hR (hP e List.mem_cons_self)
    obtain ⟨b2, e2, h2⟩ := ih b1 _ h1 (fun x hx => hP x (List.mem_cons_of_mem _ hx))
    refine ⟨b2, ?_, h2⟩
    simp only [bankRun, e1]
    simp only [Res.ok_bind, e2]
    rfl

/-! ## Lemmas on lookups -/

theorem find?_eraseAll {K ω : Type _} [DecidableEq K] (ks : List K) : ∀ (m : UMap K ω) (j : K),
    UMap.find? j (eraseAll ks m) = if j ∈ ks then none else UMap.find? j m := by
  induction ks with
  | nil => intro m j; simp [eraseAll]
  | cons k ks ih =>
    intro m j
    have : eraseAll (k :: ks) m = eraseAll ks (UMap.erase k m) := rfl
    rw [this, ih, UMap.find?_erase]
    by_cases c : j = k
    · subst c; simp
    · simp [c]

theorem mem_lkpIns {κ σ : Type _} [DecidableEq κ] [DecidableEq σ] {m : UMap κ (List σ)} {k j : κ} {x y : σ} :
    y ∈ lkp (lkpIns m k x) j ↔ (j = k ∧ y = x) ∨ y ∈ lkp m j := by
  unfold lkpIns
  have : lkp (UMap.set k (setIns x (lkp m k)) m) j = if j = k then setIns x (lkp m k) else lkp m j := by
    unfold lkp
    rw [UMap.find?_set]
    split <;> rfl
  rw [this]
  by_cases c : j = k
  · subst c; rw [if_pos rfl, mem_setIns]; simp
  · rw [if_neg c]; simp [c]

theorem mem_lkpDel {κ σ : Type _} [DecidableEq κ] [DecidableEq σ] {m : UMap κ (List σ)} {k j : κ} {x y : σ} :
    y ∈ lkp (lkpDel m k x) j ↔ ¬ (j = k ∧ y = x) ∧ y ∈ lkp m j := by
  unfold lkpDel
  have : lkp (UMap.set k (setDel x (lkp m k)) m) j = if j = k then setDel x (lkp m k) else lkp m j := by
    unfold lkp
    rw [UMap.find?_set]
    split <;> rfl
  rw [this]
  by_cases c : j = k
  · subst c; rw [if_pos rfl, mem_setDel]; simp
  · rw [if_neg c]; simp [c]

theorem mem_foldDel {κ σ τ : Type _} [DecidableEq κ] [DecidableEq σ] (kf : τ → κ) (xf : τ → σ) (ts : List τ) :
    ∀ (m : UMap κ (List σ)) (j : κ) (y : σ), y ∈ lkp (ts.foldl (fun l t => lkpDel l (kf t) (xf t)) m) j ↔
      y ∈ lkp m j ∧ ∀ t ∈ ts, ¬ (j = kf t ∧ y = xf t) := by
  induction ts with
  | nil => intro m j y; simp
  | cons t ts ih =>
    intro m j y
    rw [List.foldl_cons, ih, mem_lkpDel]
    simp only [List.mem_cons, forall_eq_or_imp]
    constructor
    · rintro ⟨⟨a, b⟩, c⟩; exact ⟨b, a, c⟩
    · rintro ⟨b, a, c⟩; exact ⟨⟨a, b⟩, c⟩

theorem mem_lkpErase {κ σ : Type _} [DecidableEq κ] {m : UMap κ (List σ)} {k j : κ} {y : σ} :
    y ∈ lkp (UMap.erase k m) j ↔ j ≠ k ∧ y ∈ lkp m j := by
  unfold lkp
  rw [UMap.find?_erase]
  by_cases c : j = k
  · simp [c]
  · simp [c]

theorem lkp_of_find? {κ σ : Type _} [DecidableEq κ] {m : UMap κ (List σ)} {k : κ} {l : List σ} (h : UMap.find? k m = some l) :
    lkp m k = l := by unfold lkp; rw [h]; rfl

theorem lkp_of_none {κ σ : Type _} [DecidableEq κ] {m : UMap κ (List σ)} {k : κ} (h : UMap.find? k m = none) : lkp m k = [] := by
  unfold lkp; rw [h]; rfl

/-! ## One pointer -/

namespace PBank

variable {ω : Type}

/-- The bank holds what the specification says, and observes every key that has an object. -/
structure Sim (b : PBank ω) (s : BSpec Nat ω) : Prop where
  obj : ∀ k, UMap.find? k b.map = s.obj k
  calls : b.calls = s.calls
  tgt : ∀ k x, s.obj k = some x → k ∈ b.targets

/-- A death concerns the key that died. -/
def hits (p k : Nat) : Bool := p = k

theorem sim_step (mk : Nat → Nat → Option ω) (b : PBank ω) (s : BSpec Nat ω) (e : BEv Nat ω Nat) (h : Sim b s)
    (hp : ∀ k v, e ≠ .put k v) : ∃ b', b.step mk e = .ok ((s.step hits mk e).1, b') ∧ Sim b' (s.step hits mk e).2 := by
  cases e with
  | put k v => exact absurd rfl (hp k v)
  | get k =>
    simp only [step, get, BSpec.step, h.obj k]
    cases hk : s.obj k with
    | some x => exact ⟨b, rfl, h⟩
    | none =>
      dsimp only
      rw [h.calls]
      cases hm : mk s.calls k with
      | none =>
        refine ⟨_, rfl, ⟨fun j => ?_, rfl, fun j x hj => ?_⟩⟩
        · dsimp only; rw [h.obj]; split
          · rename_i c; rw [c, hk]
          · rfl
        · dsimp only at hj ⊢
          split at hj
          · cases hj
          · exact mem_setIns.mpr (Or.inr (h.tgt j x hj))
      | some x =>
        refine ⟨_, rfl, ⟨fun j => ?_, rfl, fun j x hj => ?_⟩⟩
        · dsimp only; rw [UMap.find?_emplace, h.obj, h.obj, hk]; rfl
        · dsimp only at hj ⊢
          split at hj
          · rename_i c; exact mem_setIns.mpr (Or.inl c)
          · exact mem_setIns.mpr (Or.inr (h.tgt j x hj))
  | kill p =>
    refine ⟨_, rfl, ?_⟩
    simp only [BSpec.step, kill]
    split
    · refine ⟨fun j => ?_, h.calls, fun j x hj => ?_⟩
      · dsimp only
        rw [UMap.find?_erase, h.obj]
        by_cases c : j = p
        · simp [c, hits]
        · simp [c, hits, Ne.symm c]
      · dsimp only at hj ⊢
        split at hj
        · cases hj
        · rename_i c
          simp only [hits, decide_eq_true_eq] at c
          exact mem_setDel.mpr ⟨Ne.symm c, h.tgt j x hj⟩
    · rename_i hn
      refine ⟨fun j => ?_, h.calls, fun j x hj => ?_⟩
      · dsimp only
        rw [h.obj]
        split
        · rename_i c
          simp only [hits, decide_eq_true_eq] at c
          subst c
          cases hj : s.obj p with
          | none => rfl
          | some x => exact absurd (h.tgt p x hj) hn
        · rfl
      · dsimp only at hj
        split at hj
        · cases hj
        · exact h.tgt j x hj

/-- Banks and caches indexed by one pointer: every history of lookups and deaths returns what the specification returns, with the
same number of objects made. -/
theorem C57_ptr (mk : Nat → Nat → Option ω) (es : List (BEv Nat ω Nat)) (hp : ∀ e ∈ es, ∀ k v, e ≠ .put k v) :
    ∃ b', bankRun (step mk) empty es = .ok ((BSpec.empty.run hits mk es).1, b') ∧
      b'.calls = (BSpec.empty.run hits mk es).2.calls ∧ ∀ k, UMap.find? k b'.map = (BSpec.empty.run hits mk es).2.obj k := by
  obtain ⟨b', e, h⟩ := bankRun_sim (sim_step mk) es empty BSpec.empty ⟨fun _ => rfl, rfl, fun k x e => by cases e⟩ hp
  exact ⟨b', e, h.calls, h.obj⟩

end PBank

/-! ## A pointer and an argument -/

namespace ABank

variable {α ω : Type} [DecidableEq α]

/-- The bank holds what the specification says; every key with an object is observed and looked up. -/
structure Sim (b : ABank α ω) (s : BSpec (Nat × α) ω) : Prop where
  obj : ∀ k, UMap.find? k b.map = s.obj k
  calls : b.calls = s.calls
  tgt : ∀ k x, s.obj k = some x → k.1 ∈ b.targets ∧ k.2 ∈ lkp b.lookup0 k.1

omit [DecidableEq α] in
/-- A death concerns the pairs with the pointer that died. -/
def hits (p : Nat) (k : Nat × α) : Bool := p = k.1

theorem sim_step (clean : Bool) (mk : Nat → Nat × α → Option ω) (b : ABank α ω) (s : BSpec (Nat × α) ω) (e : BEv (Nat × α) ω Nat)
    (h : Sim b s) : ∃ b', b.step clean mk e = .ok ((s.step hits mk e).1, b') ∧ Sim b' (s.step hits mk e).2 := by
  cases e with
  | put k v =>
    refine ⟨_, rfl, ⟨fun j => ?_, h.calls, fun j x hj => ?_⟩⟩
    · simp only [put, BSpec.step]; rw [UMap.find?_emplace, h.obj, h.obj]
    · simp only [put, BSpec.step] at hj ⊢
      rw [mem_setIns, mem_lkpIns]
      split at hj
      · rename_i c; subst c; exact ⟨Or.inl rfl, Or.inl ⟨rfl, rfl⟩⟩
      · exact ⟨Or.inr (h.tgt j x hj).1, Or.inr (h.tgt j x hj).2⟩
  | get k =>
    simp only [step, get, BSpec.step, h.obj k]
    cases hk : s.obj k with
    | some x => exact ⟨b, rfl, h⟩
    | none =>
      dsimp only
      rw [h.calls]
      cases hm : mk s.calls k with
      | none =>
        refine ⟨_, rfl, ⟨fun j => ?_, rfl, fun j x hj => ?_⟩⟩
        · dsimp only; rw [h.obj]; split
          · rename_i c; rw [c, hk]
          · rfl
        · dsimp only at hj ⊢
          rw [mem_setIns, mem_lkpIns]
          split at hj
          · cases hj
          · exact ⟨Or.inr (h.tgt j x hj).1, Or.inr (h.tgt j x hj).2⟩
      | some x =>
        refine ⟨_, rfl, ⟨fun j => ?_, rfl, fun j x hj => ?_⟩⟩
        · dsimp only; rw [UMap.find?_emplace, h.obj, h.obj, hk]; rfl
        · dsimp only at hj ⊢
          rw [mem_setIns, mem_lkpIns]
          split at hj
          · rename_i c; subst c; exact ⟨Or.inl rfl, Or.inl ⟨rfl, rfl⟩⟩
          · exact ⟨Or.inr (h.tgt j x hj).1, Or.inr (h.tgt j x hj).2⟩
  | kill p =>
    refine ⟨_, rfl, ?_⟩
    simp only [BSpec.step, kill]
    split
    · have hset : ∀ j, lkp (UMap.set p (lkp b.lookup0 p) b.lookup0) j = lkp b.lookup0 j := by
        intro j
        unfold lkp
        rw [UMap.find?_set]
        split
        · rename_i c; rw [c]; rfl
        · rfl
      have hmem : ∀ j : Nat × α, j ∈ (lkp b.lookup0 p).map (p, ·) ↔ j.1 = p ∧ j.2 ∈ lkp b.lookup0 p := by
        rintro ⟨a, c⟩
        simp only [List.mem_map, Prod.mk.injEq]
        constructor
        · rintro ⟨y, hy, rfl, rfl⟩; exact ⟨rfl, hy⟩
        · rintro ⟨rfl, hy⟩; exact ⟨c, hy, rfl, rfl⟩
      refine ⟨fun j => ?_, h.calls, fun j x hj => ?_⟩
      · dsimp only
        rw [find?_eraseAll, h.obj]
        by_cases c : j.1 = p
        · have : hits p j = true := by simp [hits, c]
          rw [if_pos this]
          split
          · rfl
          · rename_i hn
            cases hj : s.obj j with
            | none => rfl
            | some x =>
              have := (h.tgt j x hj).2
              rw [c] at this
              exact absurd ((hmem j).mpr ⟨c, this⟩) hn
        · have : ¬ hits p j = true := by simp [hits, Ne.symm c]
          rw [if_neg this, if_neg (fun hm => c ((hmem j).mp hm).1)]
      · dsimp only at hj ⊢
        split at hj
        · cases hj
        · rename_i c
          have c' : j.1 ≠ p := by simpa [hits, eq_comm] using c
          obtain ⟨a1, a2⟩ := h.tgt j x hj
          refine ⟨mem_setDel.mpr ⟨c', a1⟩, ?_⟩
          split
          · rw [mem_lkpErase, hset]; exact ⟨c', a2⟩
          · rw [hset]; exact a2
    · rename_i hn
      refine ⟨fun j => ?_, h.calls, fun j x hj => ?_⟩
      · dsimp only
        rw [h.obj]
        split
        · rename_i c
          simp only [hits, decide_eq_true_eq] at c
          subst c
          cases hj : s.obj j with
          | none => rfl
          | some x => exact absurd (h.tgt j x hj).1 hn
        · rfl
      · dsimp only at hj
        split at hj
        · cases hj
        · exact h.tgt j x hj

/-- The same for banks and caches indexed by a pointer and an argument, with explicit insertion; the lookup sets the bank version
leaves behind do no harm. -/
theorem C57_ptr_arg (clean : Bool) (mk : Nat → Nat × α → Option ω) (es : List (BEv (Nat × α) ω Nat)) :
    ∃ b', bankRun (step clean mk) empty es = .ok ((BSpec.empty.run hits mk es).1, b') ∧
      b'.calls = (BSpec.empty.run hits mk es).2.calls ∧ ∀ k, UMap.find? k b'.map = (BSpec.empty.run hits mk es).2.obj k := by
  obtain ⟨b', e, h⟩ := bankRun_sim (P := fun _ => True) (fun b s e h _ => sim_step clean mk b s e h) es empty BSpec.empty
    ⟨fun _ => rfl, rfl, fun k x e => by cases e⟩ (fun _ _ => trivial)
  exact ⟨b', e, h.calls, h.obj⟩

end ABank

/-! ## Two pointers -/

namespace PPBank

variable {ω : Type}

/-- The bank holds what the specification says; every key with an object is observed and looked up on both sides. -/
structure Sim (b : PPBank ω) (s : BSpec (Nat × Nat) ω) : Prop where
  obj : ∀ k, UMap.find? k b.map = s.obj k
  calls : b.calls = s.calls
  tgt : ∀ k x, s.obj k = some x → k.1 ∈ b.targets0 ∧ k.2 ∈ b.targets1 ∧ k.2 ∈ lkp b.lookup0 k.1 ∧ k.1 ∈ lkp b.lookup1 k.2

/-- A death concerns the pairs with the object in that part. -/
def hits (r : Bool × Nat) (k : Nat × Nat) : Bool := r.2 = if r.1 then k.2 else k.1

theorem note_tgt {b : PPBank ω} {s : BSpec (Nat × Nat) ω} (h : Sim b s) (k j : Nat × Nat)
    (hj : j = k ∨ ∃ x, s.obj j = some x) :
    j.1 ∈ (b.note k).targets0 ∧ j.2 ∈ (b.note k).targets1 ∧ j.2 ∈ lkp (b.note k).lookup0 j.1 ∧ j.1 ∈ lkp (b.note k).lookup1 j.2 := by
  simp only [note]
  rw [mem_setIns, mem_setIns, mem_lkpIns, mem_lkpIns]
  rcases hj with rfl | ⟨x, hj⟩
  · exact ⟨Or.inl rfl, Or.inl rfl, Or.inl ⟨rfl, rfl⟩, Or.inl ⟨rfl, rfl⟩⟩
  · obtain ⟨a, b, c, d⟩ := h.tgt j x hj
    exact ⟨Or.inr a, Or.inr b, Or.inr c, Or.inr d⟩

theorem sim_step (mk : Nat → Nat × Nat → Option ω) (b : PPBank ω) (s : BSpec (Nat × Nat) ω) (e : BEv (Nat × Nat) ω (Bool × Nat))
    (h : Sim b s) : ∃ b', b.step mk e = .ok ((s.step hits mk e).1, b') ∧ Sim b' (s.step hits mk e).2 := by
  cases e with
  | put k v =>
    refine ⟨_, rfl, ⟨fun j => ?_, h.calls, fun j x hj => ?_⟩⟩
    · simp only [put, BSpec.step]; rw [UMap.find?_emplace, h.obj, h.obj]
    · simp only [BSpec.step] at hj
      refine note_tgt h k j ?_
      split at hj
      · rename_i c; exact Or.inl c
      · exact Or.inr ⟨x, hj⟩
  | get k =>
    simp only [step, get, BSpec.step, h.obj k]
    cases hk : s.obj k with
    | some x => exact ⟨b, rfl, h⟩
    | none =>
      dsimp only
      rw [h.calls]
      cases hm : mk s.calls k with
      | none =>
        refine ⟨_, rfl, ⟨fun j => ?_, rfl, fun j x hj => ?_⟩⟩
        · dsimp only [note]; rw [h.obj]; split
          · rename_i c; rw [c, hk]
          · rfl
        · refine note_tgt h k j ?_
          dsimp only at hj
          split at hj
          · cases hj
          · exact Or.inr ⟨x, hj⟩
      | some x =>
        refine ⟨_, rfl, ⟨fun j => ?_, rfl, fun j x hj => ?_⟩⟩
        · dsimp only; rw [UMap.find?_emplace, h.obj, h.obj, hk]; rfl
        · refine note_tgt h k j ?_
          dsimp only at hj
          split at hj
          · rename_i c; exact Or.inl c
          · exact Or.inr ⟨x, hj⟩
  | kill r =>
    refine ⟨_, rfl, ?_⟩
    obtain ⟨i, p⟩ := r
    -- a death nobody observes changes nothing
    have hno : (∀ k x, s.obj k = some x → hits (i, p) k = false) →
        (⟨fun j => if hits (i, p) j then none else s.obj j, s.calls⟩ : BSpec (Nat × Nat) ω) = s := by
      intro hn
      have : (fun j => if hits (i, p) j then none else s.obj j) = s.obj := by
        funext j
        split
        · rename_i c
          cases hj : s.obj j with
          | none => rfl
          | some x => rw [hn j x hj] at c; cases c
        · rfl
      rw [this]
    cases i with
    | false =>
      have hh : ∀ k, hits (false, p) k = true ↔ k.1 = p := by
        intro k
        simp only [hits, Bool.false_eq_true, if_false, decide_eq_true_eq]
        exact eq_comm
      simp only [BSpec.step, kill]
      split
      · unfold erase0
        cases hf : UMap.find? p b.lookup0 with
        | none =>
          have hn := lkp_of_none hf
          have : ∀ k x, s.obj k = some x → k.1 ≠ p := by
            rintro k x hk rfl
            have := (h.tgt k x hk).2.2.1
            rw [hn] at this; cases this
          rw [hno (fun k x hk => by
            rw [Bool.eq_false_iff]; intro c; exact this k x hk ((hh k).mp c))]
          refine ⟨h.obj, h.calls, fun k x hk => ?_⟩
          obtain ⟨a1, a2, a3, a4⟩ := h.tgt k x hk
          exact ⟨mem_setDel.mpr ⟨this k x hk, a1⟩, a2, a3, a4⟩
        | some ys =>
          have hl := lkp_of_find? hf
          refine ⟨fun j => ?_, h.calls, fun j x hj => ?_⟩
          · dsimp only
            rw [find?_eraseAll, h.obj]
            by_cases c : j.1 = p
            · rw [if_pos ((hh j).mpr c)]
              split
              · rfl
              · rename_i hn
                cases hj : s.obj j with
                | none => rfl
                | some x =>
                  have := (h.tgt j x hj).2.2.1
                  rw [c, hl] at this
                  exact absurd (List.mem_map.mpr ⟨j.2, this, by rw [← c]⟩) hn
            · rw [if_neg (fun e => c ((hh j).mp e)), if_neg]
              intro hm
              obtain ⟨y, _, e⟩ := List.mem_map.mp hm
              exact c (by rw [← e])
          · dsimp only at hj ⊢
            split at hj
            · cases hj
            · rename_i c
              have c' : j.1 ≠ p := fun e => c ((hh j).mpr e)
              obtain ⟨a1, a2, a3, a4⟩ := h.tgt j x hj
              refine ⟨mem_setDel.mpr ⟨c', a1⟩, a2, mem_lkpErase.mpr ⟨c', a3⟩, ?_⟩
              rw [mem_foldDel (fun y => y) (fun _ => p)]
              exact ⟨a4, fun t _ e => c' e.2⟩
      · rename_i hn
        rw [hno (fun k x hk => by
          rw [Bool.eq_false_iff]; intro c
          have := (h.tgt k x hk).1
          rw [(hh k).mp c] at this
          exact hn this)]
        exact h
    | true =>
      have hh : ∀ k, hits (true, p) k = true ↔ k.2 = p := by
        intro k
        simp only [hits, if_true, decide_eq_true_eq]
        exact eq_comm
      simp only [BSpec.step, kill]
      split
      · unfold erase1
        cases hf : UMap.find? p b.lookup1 with
        | none =>
          have hn := lkp_of_none hf
          have : ∀ k x, s.obj k = some x → k.2 ≠ p := by
            rintro k x hk rfl
            have := (h.tgt k x hk).2.2.2
            rw [hn] at this; cases this
          rw [hno (fun k x hk => by
            rw [Bool.eq_false_iff]; intro c; exact this k x hk ((hh k).mp c))]
          refine ⟨h.obj, h.calls, fun k x hk => ?_⟩
          obtain ⟨a1, a2, a3, a4⟩ := h.tgt k x hk
          exact ⟨a1, mem_setDel.mpr ⟨this k x hk, a2⟩, a3, a4⟩
        | some xs =>
          have hl := lkp_of_find? hf
          refine ⟨fun j => ?_, h.calls, fun j x hj => ?_⟩
          · dsimp only
            rw [find?_eraseAll, h.obj]
            by_cases c : j.2 = p
            · rw [if_pos ((hh j).mpr c)]
              split
              · rfl
              · rename_i hn
                cases hj : s.obj j with
                | none => rfl
                | some x =>
                  have := (h.tgt j x hj).2.2.2
                  rw [c, hl] at this
                  exact absurd (List.mem_map.mpr ⟨j.1, this, by rw [← c]⟩) hn
            · rw [if_neg (fun e => c ((hh j).mp e)), if_neg]
              intro hm
              obtain ⟨y, _, e⟩ := List.mem_map.mp hm
              exact c (by rw [← e])
          · dsimp only at hj ⊢
            split at hj
            · cases hj
            · rename_i c
              have c' : j.2 ≠ p := fun e => c ((hh j).mpr e)
              obtain ⟨a1, a2, a3, a4⟩ := h.tgt j x hj
              refine ⟨a1, mem_setDel.mpr ⟨c', a2⟩, ?_, mem_lkpErase.mpr ⟨c', a4⟩⟩
              rw [mem_foldDel (fun y => y) (fun _ => p)]
              exact ⟨a3, fun t _ e => c' e.2⟩
      · rename_i hn
        rw [hno (fun k x hk => by
          rw [Bool.eq_false_iff]; intro c
          have := (h.tgt k x hk).2.1
          rw [(hh k).mp c] at this
          exact hn this)]
        exact h

/-- The same for banks indexed by two pointers. -/
theorem C57_ptr_pair (mk : Nat → Nat × Nat → Option ω) (es : List (BEv (Nat × Nat) ω (Bool × Nat))) :
    ∃ b', bankRun (step mk) empty es = .ok ((BSpec.empty.run hits mk es).1, b') ∧
      b'.calls = (BSpec.empty.run hits mk es).2.calls ∧ ∀ k, UMap.find? k b'.map = (BSpec.empty.run hits mk es).2.obj k := by
  obtain ⟨b', e, h⟩ := bankRun_sim (P := fun _ => True) (fun b s e h _ => sim_step mk b s e h) es empty BSpec.empty
    ⟨fun _ => rfl, rfl, fun k x e => by cases e⟩ (fun _ _ => trivial)
  exact ⟨b', e, h.calls, h.obj⟩

end PPBank

/-! ## Three pointers and an argument -/

namespace TBank

variable {α ω : Type} [DecidableEq α]

/-- The cache holds what the specification says; every key with an object is observed and looked up in all three parts, and the
lookups hold only keys of their pointer. -/
structure Sim (b : TBank α ω) (s : BSpec (TKey α) ω) : Prop where
  obj : ∀ k, UMap.find? k b.map = s.obj k
  calls : b.calls = s.calls
  tgt : ∀ k x, s.obj k = some x → ∀ i, k.ptr i ∈ b.targets i ∧ k ∈ lkp (b.lookup i) (k.ptr i)
  own : ∀ i p k, k ∈ lkp (b.lookup i) p → k.ptr i = p

omit [DecidableEq α] in
/-- A death concerns the keys with the object in that part. -/
def hits (r : Fin 3 × Nat) (k : TKey α) : Bool := r.2 = k.ptr r.1

theorem note_sim {b : TBank α ω} {s : BSpec (TKey α) ω} (h : Sim b s) (k j : TKey α) (hj : j = k ∨ ∃ x, s.obj j = some x) :
    ∀ i, j.ptr i ∈ (b.note k).targets i ∧ j ∈ lkp ((b.note k).lookup i) (j.ptr i) := by
  intro i
  simp only [note]
  rw [mem_setIns, mem_lkpIns]
  rcases hj with rfl | ⟨x, hj⟩
  · exact ⟨Or.inl rfl, Or.inl ⟨rfl, rfl⟩⟩
  · exact ⟨Or.inr (h.tgt j x hj i).1, Or.inr (h.tgt j x hj i).2⟩

theorem note_own {b : TBank α ω} {s : BSpec (TKey α) ω} (h : Sim b s) (k : TKey α) :
    ∀ i p j, j ∈ lkp ((b.note k).lookup i) p → j.ptr i = p := by
  intro i p j hj
  simp only [note] at hj
  rw [mem_lkpIns] at hj
  rcases hj with ⟨rfl, rfl⟩ | hj
  · rfl
  · exact h.own i p j hj

theorem sim_step (mk : Nat → TKey α → Option ω) (b : TBank α ω) (s : BSpec (TKey α) ω) (e : BEv (TKey α) ω (Fin 3 × Nat))
    (h : Sim b s) : ∃ b', b.step mk e = .ok ((s.step hits mk e).1, b') ∧ Sim b' (s.step hits mk e).2 := by
  cases e with
  | put k v =>
    refine ⟨_, rfl, ⟨fun j => ?_, h.calls, fun j x hj => ?_, note_own h k⟩⟩
    · simp only [put, BSpec.step]; rw [UMap.find?_emplace, h.obj, h.obj]
    · simp only [BSpec.step] at hj
      refine note_sim h k j ?_
      split at hj
      · rename_i c; exact Or.inl c
      · exact Or.inr ⟨x, hj⟩
  | get k =>
    simp only [step, get, BSpec.step, h.obj k]
    cases hk : s.obj k with
    | some x => exact ⟨b, rfl, h⟩
    | none =>
      dsimp only
      rw [h.calls]
      cases hm : mk s.calls k with
      | none =>
        refine ⟨_, rfl, ⟨fun j => ?_, rfl, fun j x hj => ?_, note_own h k⟩⟩
        · dsimp only [note]; rw [h.obj]; split
          · rename_i c; rw [c, hk]
          · rfl
        · refine note_sim h k j ?_
          dsimp only at hj
          split at hj
          · cases hj
          · exact Or.inr ⟨x, hj⟩
      | some x =>
        refine ⟨_, rfl, ⟨fun j => ?_, rfl, fun j x hj => ?_, note_own h k⟩⟩
        · dsimp only; rw [UMap.find?_emplace, h.obj, h.obj, hk]; rfl
        · refine note_sim h k j ?_
          dsimp only at hj
          split at hj
          · rename_i c; exact Or.inl c
          · exact Or.inr ⟨x, hj⟩
  | kill r =>
    refine ⟨_, rfl, ?_⟩
    obtain ⟨i, p⟩ := r
    have hh : ∀ k : TKey α, hits (i, p) k = true ↔ k.ptr i = p := by
      intro k
      simp only [hits, decide_eq_true_eq]
      exact eq_comm
    have hno : (∀ k x, s.obj k = some x → k.ptr i ≠ p) →
        (⟨fun j => if hits (i, p) j then none else s.obj j, s.calls⟩ : BSpec (TKey α) ω) = s := by
      intro hn
      have : (fun j => if hits (i, p) j then none else s.obj j) = s.obj := by
        funext j
        split
        · rename_i c
          cases hj : s.obj j with
          | none => rfl
          | some x => exact absurd ((hh j).mp c) (hn j x hj)
        · rfl
      rw [this]
    simp only [BSpec.step, kill]
    split
    · unfold eraseI
      cases hf : UMap.find? p (b.lookup i) with
      | none =>
        have hn := lkp_of_none hf
        have hne : ∀ k x, s.obj k = some x → k.ptr i ≠ p := by
          rintro k x hk rfl
          have := (h.tgt k x hk i).2
          rw [hn] at this; cases this
        rw [hno hne]
        refine ⟨h.obj, h.calls, fun k x hk j => ?_, h.own⟩
        obtain ⟨a1, a2⟩ := h.tgt k x hk j
        refine ⟨?_, a2⟩
        dsimp only
        split
        · rename_i c; subst c; exact mem_setDel.mpr ⟨hne k x hk, a1⟩
        · exact a1
      | some ps =>
        have hl := lkp_of_find? hf
        have hps : ∀ q ∈ ps, q.ptr i = p := fun q hq => h.own i p q (by rw [hl]; exact hq)
        refine ⟨fun j => ?_, h.calls, fun k x hk j => ?_, fun j q k hk => ?_⟩
        · dsimp only
          rw [find?_eraseAll, h.obj]
          by_cases c : j.ptr i = p
          · rw [if_pos ((hh j).mpr c)]
            split
            · rfl
            · rename_i hn
              cases hj : s.obj j with
              | none => rfl
              | some x =>
                have := (h.tgt j x hj i).2
                rw [c, hl] at this
                exact absurd this hn
          · rw [if_neg (fun e => c ((hh j).mp e)), if_neg (fun hm => c (hps j hm))]
        · dsimp only at hk ⊢
          split at hk
          · cases hk
          · rename_i c
            have c' : k.ptr i ≠ p := fun e => c ((hh k).mpr e)
            obtain ⟨a1, a2⟩ := h.tgt k x hk j
            by_cases d : j = i
            · subst d
              rw [if_pos rfl, if_pos rfl]
              exact ⟨mem_setDel.mpr ⟨c', a1⟩, mem_lkpErase.mpr ⟨c', a2⟩⟩
            · rw [if_neg d, if_neg d]
              refine ⟨a1, ?_⟩
              rw [mem_foldDel (fun q : TKey α => q.ptr j) (fun q => q)]
              refine ⟨a2, ?_⟩
              rintro t ht ⟨_, rfl⟩
              exact c' (hps k ht)
        · dsimp only at hk
          split at hk
          · rename_i d
            subst d
            exact h.own _ q k (mem_lkpErase.mp hk).2
          · rw [mem_foldDel (fun q : TKey α => q.ptr j) (fun q => q)] at hk
            exact h.own j q k hk.1
    · rename_i hn
      rw [hno (fun k x hk e => by
        have := (h.tgt k x hk i).1
        rw [e] at this
        exact hn this)]
      exact h

/-- The same for caches indexed by three pointers (and an argument). -/
theorem C57_ptr_triple (mk : Nat → TKey α → Option ω) (es : List (BEv (TKey α) ω (Fin 3 × Nat))) :
    ∃ b', bankRun (step mk) empty es = .ok ((BSpec.empty.run hits mk es).1, b') ∧
      b'.calls = (BSpec.empty.run hits mk es).2.calls ∧ ∀ k, UMap.find? k b'.map = (BSpec.empty.run hits mk es).2.obj k := by
  obtain ⟨b', e, h⟩ := bankRun_sim (P := fun _ => True) (fun b s e h _ => sim_step mk b s e h) es empty BSpec.empty
    ⟨fun _ => rfl, rfl, fun k x e => (by cases e), fun i p k hk => (by cases hk)⟩ (fun _ _ => trivial)
  exact ⟨b', e, h.calls, h.obj⟩

end TBank

/-! ## Lists of pointers -/

namespace LBank

variable {ω : Type}

/-- The bank holds what the specification says; every member of a stored key is observed and has the key among its memberships;
memberships hold only keys with that member; exactly the observed pointers have memberships. -/
structure Sim (b : LBank ω) (s : BSpec (List Nat) ω) : Prop where
  obj : ∀ k, UMap.find? k b.map = s.obj k
  calls : b.calls = s.calls
  tgt : ∀ k x, s.obj k = some x → ∀ p ∈ k, k ∈ lkp b.memberships p
  own : ∀ p k, k ∈ lkp b.memberships p → p ∈ k
  reg : ∀ p, p ∈ b.targets ↔ (UMap.find? p b.memberships).isSome

/-- A death concerns the lists with that member. -/
def hits (p : Nat) (k : List Nat) : Bool := p ∈ k

theorem note1_spec (k : List Nat) (b : LBank ω) (q : Nat) :
    (note1 k b q).map = b.map ∧ (note1 k b q).calls = b.calls ∧
    (∀ p j, j ∈ lkp (note1 k b q).memberships p ↔ (p = q ∧ j = k) ∨ j ∈ lkp b.memberships p) ∧
    (∀ p, p ∈ (note1 k b q).targets ↔ p = q ∨ p ∈ b.targets) ∧
    (∀ p, (UMap.find? p (note1 k b q).memberships).isSome ↔ p = q ∨ (UMap.find? p b.memberships).isSome) := by
  refine ⟨rfl, rfl, fun p j => ?_, fun p => mem_setIns, fun p => ?_⟩
  · simp only [note1]
    have : lkp (UMap.set q (lkp b.memberships q ++ [k]) b.memberships) p =
        if p = q then lkp b.memberships q ++ [k] else lkp b.memberships p := by
      conv_lhs => unfold lkp
      rw [UMap.find?_set]
      split <;> rfl
    rw [this]
    by_cases c : p = q
    · subst c; rw [if_pos rfl, List.mem_append, List.mem_singleton]; simp [or_comm]
    · rw [if_neg c]; simp [c]
  · simp only [note1]
    rw [UMap.find?_set]
    by_cases c : p = q
    · simp [c]
    · simp [c]

theorem noteAll_spec (k : List Nat) : ∀ (l : List Nat) (b : LBank ω),
    (l.foldl (note1 k) b).map = b.map ∧ (l.foldl (note1 k) b).calls = b.calls ∧
    (∀ p j, j ∈ lkp (l.foldl (note1 k) b).memberships p ↔ (p ∈ l ∧ j = k) ∨ j ∈ lkp b.memberships p) ∧
    (∀ p, p ∈ (l.foldl (note1 k) b).targets ↔ p ∈ l ∨ p ∈ b.targets) ∧
    (∀ p, (UMap.find? p (l.foldl (note1 k) b).memberships).isSome ↔ p ∈ l ∨ (UMap.find? p b.memberships).isSome) := by
  intro l
  induction l with
  | nil => intro b; simp
  | cons q l ih =>
    intro b
    obtain ⟨h1, h2, h3, h4, h5⟩ := ih (note1 k b q)
    obtain ⟨g1, g2, g3, g4, g5⟩ := note1_spec k b q
    rw [List.foldl_cons]
    refine ⟨by rw [h1, g1], by rw [h2, g2], fun p j => ?_, fun p => ?_, fun p => ?_⟩
    · rw [h3, g3, List.mem_cons]
      constructor
      · rintro (⟨a, b⟩ | ⟨a, b⟩ | a)
        · exact Or.inl ⟨Or.inr a, b⟩
        · exact Or.inl ⟨Or.inl a, b⟩
        · exact Or.inr a
      · rintro (⟨a | a, b⟩ | a)
        · exact Or.inr (Or.inl ⟨a, b⟩)
        · exact Or.inl ⟨a, b⟩
        · exact Or.inr (Or.inr a)
    · rw [h4, g4, List.mem_cons, or_left_comm, or_assoc]
    · rw [h5, g5, List.mem_cons, or_left_comm, or_assoc]

theorem sim_step (mk : Nat → List Nat → Option ω) (b : LBank ω) (s : BSpec (List Nat) ω) (e : BEv (List Nat) ω Nat) (h : Sim b s)
    (hp : ∀ k v, e ≠ .put k v) : ∃ b', b.step mk e = .ok ((s.step hits mk e).1, b') ∧ Sim b' (s.step hits mk e).2 := by
  cases e with
  | put k v => exact absurd rfl (hp k v)
  | get k =>
    simp only [step, get, BSpec.step, h.obj k]
    cases hk : s.obj k with
    | some x => exact ⟨b, rfl, h⟩
    | none =>
      obtain ⟨n1, n2, n3, n4, n5⟩ := noteAll_spec k k b
      have hown : ∀ p j, j ∈ lkp (k.foldl (note1 k) b).memberships p → p ∈ j := by
        intro p j hj
        rcases (n3 p j).mp hj with ⟨a, rfl⟩ | a
        · exact a
        · exact h.own p j a
      have hreg : ∀ p, p ∈ (k.foldl (note1 k) b).targets ↔ (UMap.find? p (k.foldl (note1 k) b).memberships).isSome := by
        intro p; rw [n4, n5, h.reg]
      have htgt : ∀ j, (j = k ∨ ∃ x, s.obj j = some x) → ∀ p ∈ j, j ∈ lkp (k.foldl (note1 k) b).memberships p := by
        rintro j (rfl | ⟨x, hx⟩) p hpj
        · exact (n3 p j).mpr (Or.inl ⟨hpj, rfl⟩)
        · exact (n3 p j).mpr (Or.inr (h.tgt j x hx p hpj))
      dsimp only
      rw [h.calls]
      cases hm : mk s.calls k with
      | none =>
        refine ⟨_, rfl, ⟨fun j => ?_, rfl, fun j x hj => htgt j ?_, hown, hreg⟩⟩
        · dsimp only; rw [n1, h.obj]; split
          · rename_i c; rw [c, hk]
          · rfl
        · dsimp only at hj
          split at hj
          · cases hj
          · exact Or.inr ⟨x, hj⟩
      | some x =>
        refine ⟨_, rfl, ⟨fun j => ?_, rfl, fun j x hj => htgt j ?_, hown, hreg⟩⟩
        · dsimp only; rw [UMap.find?_emplace, h.obj, h.obj, hk]; rfl
        · dsimp only at hj
          split at hj
          · rename_i c; exact Or.inl c
          · exact Or.inr ⟨x, hj⟩
  | kill p =>
    have hh : ∀ k : List Nat, hits p k = true ↔ p ∈ k := by intro k; simp [hits]
    simp only [step, BSpec.step]
    unfold kill
    by_cases ht : p ∈ b.targets
    · rw [if_pos ht]
      obtain ⟨qs, hf⟩ := Option.isSome_iff_exists.mp ((h.reg p).mp ht)
      have hl := lkp_of_find? hf
      simp only [eraseAllInvolving, hf]
      refine ⟨_, rfl, ⟨fun j => ?_, h.calls, fun j x hj q hq => ?_, fun q j hj => ?_, fun q => ?_⟩⟩
      · dsimp only
        rw [find?_eraseAll, h.obj]
        by_cases c : p ∈ j
        · rw [if_pos ((hh j).mpr c)]
          split
          · rfl
          · rename_i hn
            cases hj : s.obj j with
            | none => rfl
            | some x =>
              have := h.tgt j x hj p c
              rw [hl] at this
              exact absurd this hn
        · rw [if_neg (fun e => c ((hh j).mp e)), if_neg]
          intro hm
          exact c (h.own p j (by rw [hl]; exact hm))
      · dsimp only at hj ⊢
        split at hj
        · cases hj
        · rename_i c
          rw [mem_lkpErase]
          refine ⟨?_, h.tgt j x hj q hq⟩
          rintro rfl
          exact c ((hh j).mpr hq)
      · exact h.own q j (mem_lkpErase.mp hj).2
      · dsimp only
        rw [mem_setDel, UMap.find?_erase, h.reg]
        by_cases c : q = p
        · simp [c]
        · simp [c]
    · rw [if_neg ht]
      refine ⟨b, rfl, ⟨fun j => ?_, h.calls, fun j x hj => ?_, h.own, h.reg⟩⟩
      · dsimp only
        rw [h.obj]
        split
        · rename_i c
          cases hj : s.obj j with
          | none => rfl
          | some x =>
            have h1 := h.tgt j x hj p ((hh j).mp c)
            refine absurd ((h.reg p).mpr ?_) ht
            cases hf : UMap.find? p b.memberships with
            | none => rw [lkp_of_none hf] at h1; cases h1
            | some _ => rfl
        · rfl
      · dsimp only at hj
        split at hj
        · cases hj
        · exact h.tgt j x hj

/-- The same for banks indexed by a list of pointers; the assertion at line 81 never fails, and memberships of lists whose
objects are gone do no harm. -/
theorem C57_ptr_list (mk : Nat → List Nat → Option ω) (es : List (BEv (List Nat) ω Nat)) (hp : ∀ e ∈ es, ∀ k v, e ≠ .put k v) :
    ∃ b', bankRun (step mk) empty es = .ok ((BSpec.empty.run hits mk es).1, b') ∧
      b'.calls = (BSpec.empty.run hits mk es).2.calls ∧ ∀ k, UMap.find? k b'.map = (BSpec.empty.run hits mk es).2.obj k := by
  obtain ⟨b', e, h⟩ := bankRun_sim (sim_step mk) es empty BSpec.empty
    ⟨fun _ => rfl, rfl, fun k x e => (by cases e), fun p k hk => (by cases hk),
      fun p => by
        show p ∈ [] ↔ (UMap.find? p ([] : UMap Nat (List (List Nat)))).isSome = true
        simp [UMap.find?]⟩ hp
  exact ⟨b', e, h.calls, h.obj⟩

end LBank

/-! ## What the specification says -/

namespace BSpec

variable {K ω ρ : Type} [DecidableEq K]

/-- The specification keeps an object until a death concerns its key: a lookup that returned an object is followed by lookups that
return the same object, and that make nothing, as long as no death concerns the key. -/
theorem C57_same_object (hits : ρ → K → Bool) (mk : Nat → K → Option ω) (s : BSpec K ω) (k : K) (x : ω)
    (mid : List (BEv K ω ρ)) (h0 : (s.step hits mk (.get k)).1 = some x) (hm : ∀ r, .kill r ∈ mid → hits r k = false) :
    let s1 := ((s.step hits mk (.get k)).2.run hits mk mid).2
    s1.step hits mk (.get k) = (some x, s1) := by
  have key : ∀ (mid : List (BEv K ω ρ)) (s : BSpec K ω), s.obj k = some x → (∀ r, .kill r ∈ mid → hits r k = false) →
      (s.run hits mk mid).2.obj k = some x := by
    intro mid
    induction mid with
    | nil => intro s h _; exact h
    | cons e mid ih =>
      intro s h hm
      refine ih _ ?_ (fun r hr => hm r (List.mem_cons_of_mem _ hr))
      cases e with
      | get j =>
        simp only [step]
        cases hj : s.obj j with
        | some y => exact h
        | none =>
          dsimp only
          rw [if_neg (fun e => by rw [← e, h] at hj; cases hj)]
          exact h
      | put j v =>
        simp only [step]
        split
        · rename_i c; rw [← c, h]; rfl
        · exact h
      | kill r =>
        simp only [step]
        rw [hm r List.mem_cons_self]
        exact h
  have h1 : (s.step hits mk (.get k)).2.obj k = some x := by
    simp only [step] at h0 ⊢
    cases hk : s.obj k with
    | some y => rw [hk] at h0; simp only [hk]; exact h0
    | none => rw [hk] at h0; simp only [if_true]; exact h0
  have h2 := key mid _ h1 hm
  intro s1
  show s1.step hits mk (.get k) = _
  have h3 : s1.obj k = some x := h2
  simp only [step, h3]

/-- After a death that concerns its key an object is gone: the next lookup makes a new one. -/
theorem C57_dead_key (hits : ρ → K → Bool) (mk : Nat → K → Option ω) (s : BSpec K ω) (k : K) (r : ρ) (h : hits r k = true) :
    let s1 := (s.step hits mk (.kill r)).2
    (s1.step hits mk (.get k)).1 = mk s1.calls k ∧ (s1.step hits mk (.get k)).2.calls = s1.calls + 1 := by
  simp [step, h]

end BSpec

/-- A maker that numbers its objects and throws on its third call. -/
def exMk {K : Type} (n : Nat) (_ : K) : Option Nat := if n = 2 then none else some (100 + n)

example : (bankRun (LBank.step exMk) LBank.empty [.get [1, 2], .get [2, 1, 1], .get [1, 2], .kill 2, .get [1, 2], .get [1, 2], .kill 1,
    .kill 2, .get [1]]).bind (fun r => .ok r.1) =
    .ok [some 100, some 101, some 100, none, none, some 103, none, none, some 104] := by decide

example : (bankRun (PPBank.step exMk) PPBank.empty [.get (1, 1), .get (1, 2), .kill (false, 1), .kill (true, 1), .get (1, 2), .put (1, 1) 7,
    .get (1, 1)]).bind (fun r => .ok r.1) = .ok [some 100, some 101, none, none, none, none, some 7] := by decide

/-! ## object_bank, once, oncep -/

namespace OBank

variable {K : Type} [DecidableEq K]

/-- If the maker never returns null, a lookup returns the stored object if there is one and stores the new one otherwise. -/
theorem C107_object_bank (mk : Nat → K → Nat) (hm : ∀ n k, mk n k ≠ 0) (ks : List K) :
    ∃ out b, (ks.foldl (fun (acc : Res (List Nat × OBank K)) k => acc >>= fun s => do
        let r ← s.2.get mk k
        .ok (s.1 ++ [r.1], r.2)) (.ok ([], ⟨[], 0⟩))) = .ok (out, b) ∧ out.length = ks.length ∧
      (∀ i j : Nat, i < ks.length → j < ks.length → ks[i]? = ks[j]? → out[i]? = out[j]?) ∧ b.calls = b.map.length := by
  have key : ∀ (ks : List K) (old : List K) (out : List Nat) (b : OBank K), out.length = old.length →
      (∀ (i : Nat) (k : K), old[i]? = some k → out[i]? = UMap.find? k b.map) → (∀ k p, UMap.find? k b.map = some p → p ≠ 0) →
      (∀ k p, UMap.find? k b.map = some p → k ∈ old) → b.calls = b.map.length →
      ∃ out' b', (ks.foldl (fun (acc : Res (List Nat × OBank K)) k => acc >>= fun s => do
        let r ← s.2.get mk k
        .ok (s.1 ++ [r.1], r.2)) (.ok (out, b))) = .ok (out', b') ∧ out'.length = (old ++ ks).length ∧
        (∀ (i : Nat) (k : K), (old ++ ks)[i]? = some k → out'[i]? = UMap.find? k b'.map) ∧ b'.calls = b'.map.length := by
    intro ks
    induction ks with
    | nil => intro old out b h1 h2 _ _ h5; exact ⟨out, b, rfl, by simpa using h1, by simpa using h2, h5⟩
    | cons k ks ih =>
      intro old out b h1 h2 h3 h4 h5
      rw [List.foldl_cons]
      cases hf : UMap.find? k b.map with
      | some p =>
        have e : b.get mk k = .ok (p, b) := by
          unfold get; rw [hf]; dsimp only; rw [if_neg (h3 k p hf)]
        simp only [Res.ok_bind, e]
        obtain ⟨out', b', e', a1, a2, a3⟩ := ih (old ++ [k]) (out ++ [p]) b (by simp [h1]) (by
          intro i j hi
          by_cases c : i < old.length
          · rw [List.getElem?_append_left c] at hi
            rw [List.getElem?_append_left (by omega)]
            exact h2 i j hi
          · rw [List.getElem?_append_right (by omega)] at hi
            rw [List.getElem?_append_right (by omega), h1]
            have hi0 : i - old.length = 0 := by
              have := (List.getElem?_eq_some_iff.mp hi).1
              simp at this; omega
            rw [hi0] at hi ⊢
            simp at hi ⊢
            rw [← hi, hf]) h3 (fun j q hj => List.mem_append_left _ (h4 j q hj)) h5
        exact ⟨out', b', e', by simpa using a1, by simpa using a2, a3⟩
      | none =>
        have e : b.get mk k = .ok (mk b.calls k, ⟨UMap.set k (mk b.calls k) b.map, b.calls + 1⟩) := by
          unfold get; rw [hf]; dsimp only; rw [if_neg (hm _ _)]
        simp only [Res.ok_bind, e]
        obtain ⟨out', b', e', a1, a2, a3⟩ := ih (old ++ [k]) (out ++ [mk b.calls k]) ⟨UMap.set k (mk b.calls k) b.map, b.calls + 1⟩
          (by simp [h1]) (by
          intro i j hi
          dsimp only
          rw [UMap.find?_set]
          by_cases c : i < old.length
          · rw [List.getElem?_append_left c] at hi
            rw [List.getElem?_append_left (by omega), h2 i j hi]
            split
            · rename_i d
              exfalso
              have hil : i < out.length := by omega
              have := h2 i j hi
              rw [d, hf, List.getElem?_eq_getElem hil] at this
              cases this
            · rfl
          · rw [List.getElem?_append_right (by omega)] at hi
            rw [List.getElem?_append_right (by omega), h1]
            have hi0 : i - old.length = 0 := by
              have := (List.getElem?_eq_some_iff.mp hi).1
              simp at this; omega
            rw [hi0] at hi ⊢
            simp at hi ⊢
            rw [hi]; simp) (by
          intro j p hj
          dsimp only at hj
          rw [UMap.find?_set] at hj
          split at hj
          · injection hj with hj; rw [← hj]; exact hm _ _
          · exact h3 j p hj) (by
          intro j p hj
          dsimp only at hj
          rw [UMap.find?_set] at hj
          split at hj
          · rename_i c; rw [c]; simp
          · exact List.mem_append_left _ (h4 j p hj)) (by
          dsimp only
          rw [UMap.length_set, hf, h5]; rfl)
        exact ⟨out', b', e', by simpa using a1, by simpa using a2, a3⟩
  obtain ⟨out, b, e, a1, a2, a3⟩ := key ks [] [] ⟨[], 0⟩ rfl (by simp) (by simp [UMap.find?]) (by simp [UMap.find?]) rfl
  refine ⟨out, b, e, by simpa using a1, ?_, a3⟩
  intro i j hi hj hij
  simp only [List.nil_append] at a2
  rw [a2 i ks[i] (List.getElem?_eq_getElem hi), a2 j ks[i] (by rw [← hij]; exact List.getElem?_eq_getElem hi)]

/-- A bank with the default maker (line 36) is unusable: the first lookup dereferences the null pointer. -/
theorem C107_default_maker (k : K) : (⟨[], 0⟩ : OBank K).get (fun _ _ => 0) k = .ub := by
  simp [get, UMap.find?]

end OBank

/-- `once`: any number of calls returns the same object, made by one call of the maker. -/
theorem C108_once {ω : Type} (mk : Nat → ω) (dflt : ω) (n : Nat) :
    ((fun b => (Once.get mk b).2)^[n + 1] ⟨false, dflt, 0⟩) = ⟨true, mk 0, 1⟩ ∧
      (Once.get mk ((fun b => (Once.get mk b).2)^[n] ⟨false, dflt, 0⟩)).1 = mk 0 := by
  have key : ∀ n : Nat, ((fun b => (Once.get mk b).2)^[n + 1] ⟨false, dflt, 0⟩) = ⟨true, mk 0, 1⟩ := by
    intro n
    induction n with
    | zero => rfl
    | succ n ih => rw [Function.iterate_succ_apply', ih]; rfl
  refine ⟨key n, ?_⟩
  cases n with
  | zero => rfl
  | succ n => rw [key n]; rfl

/-- `oncep`: once the maker has returned an object, every call returns it and the maker is not called again; as long as it
returns null every call throws. -/
theorem C108_oncep (mk : Nat → Nat) (p c : Nat) :
    (p ≠ 0 → oncepGet mk (p, c) = (.ok p, (p, c))) ∧
    (mk c ≠ 0 → oncepGet mk (0, c) = (.ok (mk c), (mk c, c + 1))) ∧
    (mk c = 0 → oncepGet mk (0, c) = (.throw, (0, c + 1))) := by
  refine ⟨fun h => ?_, fun h => ?_, fun h => ?_⟩ <;> simp [oncepGet, h]

end Cnine
