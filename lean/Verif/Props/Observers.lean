import Verif.Model.Observers
import Mathlib.Data.List.Nodup

/-! # C58, C106: observers -/

namespace Cnine

theorem mem_setIns {α : Type _} [DecidableEq α] {x y : α} {l : List α} : y ∈ setIns x l ↔ y = x ∨ y ∈ l := by
  unfold setIns
  split
  · rename_i h
    constructor
    · exact Or.inr
    · rintro (rfl | h')
      · exact h
      · exact h'
  · rw [List.mem_append, List.mem_singleton, or_comm]

theorem mem_setDel {α : Type _} [DecidableEq α] {x y : α} {l : List α} : y ∈ setDel x l ↔ y ≠ x ∧ y ∈ l := by
  unfold setDel
  rw [List.mem_filter, decide_eq_true_eq, and_comm]

theorem nodup_setIns {α : Type _} [DecidableEq α] {x : α} {l : List α} (h : l.Nodup) : (setIns x l).Nodup := by
  unfold setIns
  split
  · exact h
  · rename_i hx
    exact List.nodup_append.mpr ⟨h, List.nodup_singleton x, by
      intro a ha b hb e
      rw [List.mem_singleton] at hb
      subst hb; subst e; exact hx ha⟩

theorem nodup_setDel {α : Type _} [DecidableEq α] {x : α} {l : List α} (h : l.Nodup) : (setDel x l).Nodup := h.filter _

namespace OWorld

/-- Specification: which objects are alive and who observes whom. -/
structure Links where
  aliveT : Nat → Prop
  aliveO : Nat → Prop
  obs : Nat → Nat → Prop

/-- Nothing alive. -/
def Links.none : Links := ⟨fun _ => False, fun _ => False, fun _ _ => False⟩

/-- The effect of a call on the links. -/
def Links.step (s : Links) : Op → Links
  | .newTarget t => { s with aliveT := fun q => q = t ∨ s.aliveT q }
  | .newObserver o => { s with aliveO := fun q => q = o ∨ s.aliveO q }
  | .add o t => { s with obs := fun p q => (p = o ∧ q = t) ∨ s.obs p q }
  | .remove o t => { s with obs := fun p q => ¬ (p = o ∧ q = t) ∧ s.obs p q }
  | .delTarget t => ⟨fun q => q ≠ t ∧ s.aliveT q, s.aliveO, fun p q => q ≠ t ∧ s.obs p q⟩
  | .delObserver o => ⟨s.aliveT, fun p => p ≠ o ∧ s.aliveO p, fun p q => p ≠ o ∧ s.obs p q⟩

/-- The client creates objects only at free addresses and uses only live objects. -/
def Links.Legal (s : Links) : Op → Prop
  | .newTarget t => ¬ s.aliveT t
  | .newObserver o => ¬ s.aliveO o
  | .add o t => s.aliveO o ∧ s.aliveT t
  | .remove o t => s.aliveO o ∧ s.aliveT t
  | .delTarget t => s.aliveT t
  | .delObserver o => s.aliveO o

/-- Every call of the history is legal. -/
def LegalRun (s : Links) : List Op → Prop
  | [] => True
  | o :: os => s.Legal o ∧ LegalRun (s.step o) os

/-- The world realises the links. -/
structure Real (w : OWorld) (s : Links) : Prop where
  tg : ∀ t, (w.tg t).isSome ↔ s.aliveT t
  ob : ∀ o, (w.ob o).isSome ↔ s.aliveO o
  own : ∀ t T, w.tg t = some T → T.owner = t ∧ T.observers.Nodup ∧ ∀ o, o ∈ T.observers ↔ s.obs o t
  lst : ∀ o l, w.ob o = some l → l.Nodup ∧ ∀ t, t ∈ l ↔ s.obs o t
  live : ∀ o t, s.obs o t → s.aliveO o ∧ s.aliveT t

theorem signalAll_ok : ∀ (os : List Nat) (w : OWorld) (x : Nat), os.Nodup → (∀ o ∈ os, ∃ l, w.ob o = some l ∧ x ∈ l) →
    ∃ w', w.signalAll x os = .ok w' ∧ w'.tg = w.tg ∧ w'.log = w.log ++ os.map (·, x) ∧
      ∀ o, w'.ob o = if o ∈ os then (w.ob o).map (setDel x) else w.ob o := by
  intro os
  induction os with
  | nil => intro w x _ _; exact ⟨w, rfl, rfl, by simp, fun o => by simp⟩
  | cons a os ih =>
    intro w x hn h
    obtain ⟨hna, hn'⟩ := List.nodup_cons.mp hn
    obtain ⟨l, hl, hx⟩ := h a List.mem_cons_self
    have e1 : w.deletedSignal a x = .ok { w.setO a (some (setDel x l)) with log := w.log ++ [(a, x)] } := by
      unfold deletedSignal
      rw [hl]
      simp [Res.assrt, hx, setO]
    obtain ⟨w', e, h1, h2, h3⟩ := ih { w.setO a (some (setDel x l)) with log := w.log ++ [(a, x)] } x hn' (by
      intro o ho
      obtain ⟨l', hl', hx'⟩ := h o (List.mem_cons_of_mem _ ho)
      refine ⟨l', ?_, hx'⟩
      have : o ≠ a := fun e => hna (e ▸ ho)
      simp [setO, this, hl'])
    refine ⟨w', ?_, ?_, ?_, ?_⟩
    · unfold signalAll
      rw [e1]; exact e
    · rw [h1]; rfl
    · rw [h2]; simp
    · intro o
      rw [h3]
      by_cases c : o = a
      · subst c; simp [hna, setO, hl]
      · simp [setO, c]

theorem detachAll_ok : ∀ (ts : List Nat) (w : OWorld) (o : Nat), ts.Nodup → (∀ t ∈ ts, (w.tg t).isSome) →
    ∃ w', w.detachAll o ts = .ok w' ∧ w'.ob = w.ob ∧ w'.log = w.log ∧
      ∀ t, w'.tg t = if t ∈ ts then (w.tg t).map (fun T => { T with observers := setDel o T.observers }) else w.tg t := by
  intro ts
  induction ts with
  | nil => intro w o _ _; exact ⟨w, rfl, rfl, rfl, fun o => by simp⟩
  | cons a ts ih =>
    intro w o hn h
    obtain ⟨hna, hn'⟩ := List.nodup_cons.mp hn
    obtain ⟨T, hT⟩ := Option.isSome_iff_exists.mp (h a List.mem_cons_self)
    have e1 : w.detach a o = .ok (w.setT a (some { T with observers := setDel o T.observers })) := by
      unfold detach; rw [hT]
    obtain ⟨w', e, h1, h2, h3⟩ := ih (w.setT a (some { T with observers := setDel o T.observers })) o hn' (by
      intro t ht
      have : t ≠ a := fun e => hna (e ▸ ht)
      simp [setT, this, h t (List.mem_cons_of_mem _ ht)])
    refine ⟨w', ?_, ?_, ?_, ?_⟩
    · unfold detachAll
      rw [e1]; exact e
    · rw [h1]; rfl
    · rw [h2]; rfl
    · intro t
      rw [h3]
      by_cases c : t = a
      · subst c; simp [hna, setT, hT]
      · simp [setT, c]

theorem real_step {w : OWorld} {s : Links} (h : Real w s) {o : Op} (g : s.Legal o) :
    ∃ w', w.step o = .ok w' ∧ Real w' (s.step o) := by
  cases o with
  | newTarget t =>
    refine ⟨_, rfl, ⟨fun q => ?_, h.ob, fun q T hq => ?_, h.lst, fun p q e => ?_⟩⟩
    · simp only [newTarget, setT, Links.step]
      by_cases c : q = t
      · simp [c]
      · simp [c, h.tg]
    · simp only [newTarget, setT] at hq
      by_cases c : q = t
      · subst c
        simp at hq; subst hq
        refine ⟨rfl, List.nodup_nil, fun o => ?_⟩
        simp only [List.not_mem_nil, false_iff]
        exact fun e => g (h.live o q e).2
      · rw [if_neg c] at hq
        exact h.own q T hq
    · exact ⟨(h.live p q e).1, Or.inr (h.live p q e).2⟩
  | newObserver o =>
    refine ⟨_, rfl, ⟨h.tg, fun q => ?_, h.own, fun q l hq => ?_, fun p q e => ?_⟩⟩
    · simp only [newObserver, setO, Links.step]
      by_cases c : q = o
      · simp [c]
      · simp [c, h.ob]
    · simp only [newObserver, setO] at hq
      by_cases c : q = o
      · subst c
        simp at hq; subst hq
        refine ⟨List.nodup_nil, fun t => ?_⟩
        simp only [List.not_mem_nil, false_iff]
        exact fun e => g (h.live q t e).1
      · rw [if_neg c] at hq
        exact h.lst q l hq
    · exact ⟨Or.inr (h.live p q e).1, (h.live p q e).2⟩
  | add o t =>
    obtain ⟨g1, g2⟩ := g
    obtain ⟨l, hl⟩ := Option.isSome_iff_exists.mp ((h.ob o).mpr g1)
    obtain ⟨T, hT⟩ := Option.isSome_iff_exists.mp ((h.tg t).mpr g2)
    obtain ⟨hln, hlm⟩ := h.lst o l hl
    obtain ⟨hTo, hTn, hTm⟩ := h.own t T hT
    by_cases c : t ∈ l
    · have hs : s.step (.add o t) = s := by
        have : (fun p q => (p = o ∧ q = t) ∨ s.obs p q) = s.obs := by
          funext p q
          apply propext
          constructor
          · rintro (⟨rfl, rfl⟩ | e)
            · exact (hlm q).mp c
            · exact e
          · exact Or.inr
        simp only [Links.step, this]
      rw [hs]
      refine ⟨w, ?_, h⟩
      simp only [step, add, hl, if_pos c]
    · refine ⟨(w.setT t (some { T with observers := setIns o T.observers })).setO o (some (setIns t l)), ?_, ?_⟩
      · simp only [step, add, hl, if_neg c, attach, hT]; rfl
      · refine ⟨fun q => ?_, fun q => ?_, fun q T' hq => ?_, fun q l' hq => ?_, fun p q e => ?_⟩
        · simp only [setT, setO, Links.step]
          by_cases d : q = t
          · simp [d, g2]
          · simp [d, h.tg]
        · simp only [setT, setO, Links.step]
          by_cases d : q = o
          · simp [d, g1]
          · simp [d, h.ob]
        · simp only [setT, setO] at hq
          by_cases d : q = t
          · subst d
            simp at hq; subst hq
            refine ⟨hTo, nodup_setIns hTn, fun p => ?_⟩
            rw [mem_setIns, hTm]
            simp [Links.step]
          · rw [if_neg d] at hq
            obtain ⟨a1, a2, a3⟩ := h.own q T' hq
            refine ⟨a1, a2, fun p => ?_⟩
            rw [a3]
            simp [Links.step, d]
        · simp only [setT, setO] at hq
          by_cases d : q = o
          · subst d
            simp at hq; subst hq
            refine ⟨nodup_setIns hln, fun u => ?_⟩
            rw [mem_setIns, hlm]
            simp [Links.step]
          · rw [if_neg d] at hq
            obtain ⟨a1, a2⟩ := h.lst q l' hq
            refine ⟨a1, fun u => ?_⟩
            rw [a2]
            simp [Links.step, d]
        · rcases e with ⟨rfl, rfl⟩ | e
          · exact ⟨g1, g2⟩
          · exact h.live p q e
  | remove o t =>
    obtain ⟨g1, g2⟩ := g
    obtain ⟨l, hl⟩ := Option.isSome_iff_exists.mp ((h.ob o).mpr g1)
    obtain ⟨T, hT⟩ := Option.isSome_iff_exists.mp ((h.tg t).mpr g2)
    obtain ⟨hln, hlm⟩ := h.lst o l hl
    obtain ⟨hTo, hTn, hTm⟩ := h.own t T hT
    by_cases c : t ∈ l
    · refine ⟨(w.setT t (some { T with observers := setDel o T.observers })).setO o (some (setDel t l)), ?_, ?_⟩
      · simp only [step, remove, hl, detach, hT]
        rw [if_neg (not_not.mpr c)]; rfl
      · refine ⟨fun q => ?_, fun q => ?_, fun q T' hq => ?_, fun q l' hq => ?_, fun p q e => h.live p q e.2⟩
        · simp only [setT, setO, Links.step]
          by_cases d : q = t
          · simp [d, g2]
          · simp [d, h.tg]
        · simp only [setT, setO, Links.step]
          by_cases d : q = o
          · simp [d, g1]
          · simp [d, h.ob]
        · simp only [setT, setO] at hq
          by_cases d : q = t
          · subst d
            simp at hq; subst hq
            refine ⟨hTo, nodup_setDel hTn, fun p => ?_⟩
            rw [mem_setDel, hTm]
            simp [Links.step]
          · rw [if_neg d] at hq
            obtain ⟨a1, a2, a3⟩ := h.own q T' hq
            refine ⟨a1, a2, fun p => ?_⟩
            rw [a3]
            simp [Links.step, d]
        · simp only [setT, setO] at hq
          by_cases d : q = o
          · subst d
            simp at hq; subst hq
            refine ⟨nodup_setDel hln, fun u => ?_⟩
            rw [mem_setDel, hlm]
            simp [Links.step]
          · rw [if_neg d] at hq
            obtain ⟨a1, a2⟩ := h.lst q l' hq
            refine ⟨a1, fun u => ?_⟩
            rw [a2]
            simp [Links.step, d]
    · have hs : s.step (.remove o t) = s := by
        have : (fun p q => ¬ (p = o ∧ q = t) ∧ s.obs p q) = s.obs := by
          funext p q
          apply propext
          constructor
          · exact fun e => e.2
          · intro e
            refine ⟨?_, e⟩
            rintro ⟨rfl, rfl⟩
            exact c ((hlm q).mpr e)
        simp only [Links.step, this]
      rw [hs]
      refine ⟨w, ?_, h⟩
      simp only [step, remove, hl, if_pos c]
  | delTarget t =>
    obtain ⟨T, hT⟩ := Option.isSome_iff_exists.mp ((h.tg t).mpr g)
    obtain ⟨hTo, hTn, hTm⟩ := h.own t T hT
    obtain ⟨w', e, h1, h2, h3⟩ := signalAll_ok T.observers w t hTn (by
      intro o ho
      have ho' := (hTm o).mp ho
      obtain ⟨l, hl⟩ := Option.isSome_iff_exists.mp ((h.ob o).mpr (h.live o t ho').1)
      exact ⟨l, hl, ((h.lst o l hl).2 t).mpr ho'⟩)
    refine ⟨w'.setT t none, ?_, ?_⟩
    · simp only [step, delTarget, hT, hTo, e]; rfl
    · refine ⟨fun q => ?_, fun q => ?_, fun q T' hq => ?_, fun q l' hq => ?_, fun p q e => ⟨(h.live p q e.2).1, e.1, (h.live p q e.2).2⟩⟩
      · simp only [setT, h1, Links.step]
        by_cases d : q = t
        · simp [d]
        · simp [d, h.tg]
      · simp only [setT, h3, Links.step]
        split
        · rw [Option.isSome_map]; exact h.ob q
        · exact h.ob q
      · simp only [setT, h1] at hq
        by_cases d : q = t
        · simp [d] at hq
        · rw [if_neg d] at hq
          obtain ⟨a1, a2, a3⟩ := h.own q T' hq
          refine ⟨a1, a2, fun p => ?_⟩
          rw [a3]
          simp [Links.step, d]
      · simp only [setT, h3] at hq
        split at hq
        · obtain ⟨l, hl, rfl⟩ := Option.map_eq_some_iff.mp hq
          obtain ⟨a1, a2⟩ := h.lst q l hl
          refine ⟨nodup_setDel a1, fun u => ?_⟩
          rw [mem_setDel, a2]
          rfl
        · rename_i hm
          obtain ⟨a1, a2⟩ := h.lst q l' hq
          refine ⟨a1, fun u => ?_⟩
          rw [a2]
          simp only [Links.step]
          constructor
          · intro e'
            refine ⟨?_, e'⟩
            rintro rfl
            exact hm ((hTm q).mpr e')
          · exact fun e' => e'.2
  | delObserver o =>
    obtain ⟨l, hl⟩ := Option.isSome_iff_exists.mp ((h.ob o).mpr g)
    obtain ⟨hln, hlm⟩ := h.lst o l hl
    obtain ⟨w', e, h1, h2, h3⟩ := detachAll_ok l w o hln (by
      intro t ht
      exact (h.tg t).mpr (h.live o t ((hlm t).mp ht)).2)
    refine ⟨w'.setO o none, ?_, ?_⟩
    · simp only [step, delObserver, hl, e]; rfl
    · refine ⟨fun q => ?_, fun q => ?_, fun q T' hq => ?_, fun q l' hq => ?_, fun p q e => ⟨⟨e.1, (h.live p q e.2).1⟩, (h.live p q e.2).2⟩⟩
      · simp only [setO, h3, Links.step]
        split
        · rw [Option.isSome_map]; exact h.tg q
        · exact h.tg q
      · simp only [setO, h1, Links.step]
        by_cases d : q = o
        · simp [d]
        · simp [d, h.ob]
      · simp only [setO, h3] at hq
        split at hq
        · obtain ⟨T, hT, rfl⟩ := Option.map_eq_some_iff.mp hq
          obtain ⟨a1, a2, a3⟩ := h.own q T hT
          refine ⟨a1, nodup_setDel a2, fun p => ?_⟩
          dsimp only
          rw [mem_setDel, a3]
          rfl
        · rename_i hm
          obtain ⟨a1, a2, a3⟩ := h.own q T' hq
          refine ⟨a1, a2, fun p => ?_⟩
          rw [a3]
          simp only [Links.step]
          constructor
          · intro e'
            refine ⟨?_, e'⟩
            rintro rfl
            exact hm ((hlm q).mpr e')
          · exact fun e' => e'.2
      · simp only [setO, h1] at hq
        by_cases d : q = o
        · simp [d] at hq
        · rw [if_neg d] at hq
          obtain ⟨a1, a2⟩ := h.lst q l' hq
          refine ⟨a1, fun u => ?_⟩
          rw [a2]
          simp [Links.step, d]

theorem real_run : ∀ (ops : List Op) (w : OWorld) (s : Links), Real w s → LegalRun s ops →
    ∃ w', w.run ops = .ok w' ∧ Real w' (ops.foldl Links.step s) := by
  intro ops
  induction ops with
  | nil => intro w s h _; exact ⟨w, rfl, h⟩
  | cons o os ih =>
    intro w s h g
    obtain ⟨w1, e1, h1⟩ := real_step h g.1
    obtain ⟨w2, e2, h2⟩ := ih w1 _ h1 g.2
    refine ⟨w2, ?_, h2⟩
    simp only [run, e1]
    exact e2

theorem real_empty : Real empty Links.none := by
  refine ⟨fun t => ?_, fun o => ?_, fun t T e => ?_, fun o l e => ?_, fun o t e => e.elim⟩
  · simp [empty, Links.none]
  · simp [empty, Links.none]
  · cases e
  · cases e

/-- Observer `o` lists target `t`. -/
def Lists (w : OWorld) (o t : Nat) : Prop := ∃ l, w.ob o = some l ∧ t ∈ l

/-- Target `t` lists observer `o`. -/
def ListedBy (w : OWorld) (o t : Nat) : Prop := ∃ T, w.tg t = some T ∧ o ∈ T.observers

/-- After any legal history (addresses of destroyed objects may be used again) no call failed; an observer lists a target exactly
if the target lists the observer, which is exactly if the calls linked them; and everything listed is alive. -/
theorem C58_links (ops : List Op) (g : LegalRun Links.none ops) :
    ∃ w, empty.run ops = .ok w ∧ (∀ o t, Lists w o t ↔ ListedBy w o t) ∧
      (∀ o t, Lists w o t ↔ (ops.foldl Links.step Links.none).obs o t) ∧
      (∀ o t, Lists w o t → (w.ob o).isSome ∧ (w.tg t).isSome) ∧
      (∀ t, (w.tg t).isSome ↔ (ops.foldl Links.step Links.none).aliveT t) ∧
      (∀ o, (w.ob o).isSome ↔ (ops.foldl Links.step Links.none).aliveO o) := by
  obtain ⟨w, e, h⟩ := real_run ops _ _ real_empty g
  have h1 : ∀ o t, Lists w o t ↔ (ops.foldl Links.step Links.none).obs o t := by
    intro o t
    constructor
    · rintro ⟨l, hl, ht⟩; exact ((h.lst o l hl).2 t).mp ht
    · intro e'
      obtain ⟨l, hl⟩ := Option.isSome_iff_exists.mp ((h.ob o).mpr (h.live o t e').1)
      exact ⟨l, hl, ((h.lst o l hl).2 t).mpr e'⟩
  have h2 : ∀ o t, ListedBy w o t ↔ (ops.foldl Links.step Links.none).obs o t := by
    intro o t
    constructor
    · rintro ⟨T, hT, ho⟩; exact ((h.own t T hT).2.2 o).mp ho
    · intro e'
      obtain ⟨T, hT⟩ := Option.isSome_iff_exists.mp ((h.tg t).mpr (h.live o t e').2)
      exact ⟨T, hT, ((h.own t T hT).2.2 o).mpr e'⟩
  refine ⟨w, e, fun o t => by rw [h1, h2], h1, fun o t e' => ?_, h.tg, h.ob⟩
  have := h.live o t ((h1 o t).mp e')
  exact ⟨(h.ob o).mpr this.1, (h.tg t).mpr this.2⟩

/-- When a target is destroyed after a legal history, the deletion actions of exactly the observers linked to it run, once
each. -/
theorem C58_notified (ops : List Op) (t : Nat) (g : LegalRun Links.none (ops ++ [.delTarget t])) :
    ∃ w w' ns, empty.run ops = .ok w ∧ w.delTarget t = .ok w' ∧ w'.log = w.log ++ ns ∧ ns.Nodup ∧
      ∀ o x, (o, x) ∈ ns ↔ x = t ∧ (ops.foldl Links.step Links.none).obs o t := by
  have hsplit : ∀ (ops : List Op) (s : Links) (o : Op), LegalRun s (ops ++ [o]) → LegalRun s ops ∧ (ops.foldl Links.step s).Legal o := by
    intro ops
    induction ops with
    | nil => intro s o h; exact ⟨trivial, h.1⟩
    | cons a ops ih =>
      intro s o h
      obtain ⟨h1, h2⟩ := h
      obtain ⟨h3, h4⟩ := ih _ _ h2
      exact ⟨⟨h1, h3⟩, h4⟩
  obtain ⟨g1, g2⟩ := hsplit ops _ _ g
  obtain ⟨w, e, h⟩ := real_run ops _ _ real_empty g1
  obtain ⟨T, hT⟩ := Option.isSome_iff_exists.mp ((h.tg t).mpr g2)
  obtain ⟨hTo, hTn, hTm⟩ := h.own t T hT
  obtain ⟨w', e', h1, h2, h3⟩ := signalAll_ok T.observers w t hTn (by
    intro o ho
    have ho' := (hTm o).mp ho
    obtain ⟨l, hl⟩ := Option.isSome_iff_exists.mp ((h.ob o).mpr (h.live o t ho').1)
    exact ⟨l, hl, ((h.lst o l hl).2 t).mpr ho'⟩)
  refine ⟨w, w'.setT t none, T.observers.map (·, t), e, ?_, ?_, ?_, ?_⟩
  · simp only [delTarget, hT, hTo, e']; rfl
  · simp only [setT]; exact h2
  · exact hTn.map (fun a b hab => by injection hab)
  · intro o x
    rw [List.mem_map]
    constructor
    · rintro ⟨o', ho', e''⟩
      injection e'' with e1 e2
      subst e1 e2
      exact ⟨rfl, (hTm o').mp ho'⟩
    · rintro ⟨rfl, ho⟩
      exact ⟨o, (hTm o).mpr ho, rfl⟩

/-- Two targets, two observers; the address of a destroyed target is used again. -/
def exHist : List Op := [.newTarget 1, .newTarget 2, .newObserver 10, .newObserver 11, .add 10 1, .add 11 1, .add 10 2, .remove 10 2,
  .delTarget 1, .newTarget 1, .add 11 1, .delObserver 10]

example : LegalRun Links.none exHist := by
  simp [LegalRun, exHist, Links.none, Links.step, Links.Legal]

/-- **A copied observer is not known to its targets**: after the target is destroyed the copy still lists it, and destroying the
copy touches freed memory. -/
theorem C106_copied_observer_fails : ∃ w1 w2 w3, empty.run [.newTarget 1, .newObserver 10, .add 10 1] = .ok w1 ∧
    w1.copyObserver 11 10 = .ok w2 ∧ Lists w2 11 1 ∧ ¬ ListedBy w2 11 1 ∧
    w2.delTarget 1 = .ok w3 ∧ Lists w3 11 1 ∧ w3.delObserver 11 = .ub := by
  refine ⟨_, _, _, rfl, rfl, ⟨[1], rfl, by decide⟩, ?_, rfl, ⟨[1], rfl, by decide⟩, rfl⟩
  rintro ⟨T, hT, h⟩
  injection hT with hT
  subst hT
  revert h
  decide

/-- **An assigned target signals in the name of the other**: after `a = b`, destroying `a` makes the observer drop `b`, which is
alive, and destroying `b` then fails the assertion inside a destructor. -/
theorem C106_assigned_target_fails : ∃ w1 w2 w3, empty.run [.newTarget 1, .newTarget 2, .newObserver 10, .add 10 2] = .ok w1 ∧
    w1.assignTarget 1 2 = .ok w2 ∧ w2.delTarget 1 = .ok w3 ∧ (w3.tg 2).isSome = true ∧ ¬ Lists w3 10 2 ∧ w3.log = [(10, 2)] ∧
    w3.delTarget 2 = .throw := by
  refine ⟨_, _, _, rfl, rfl, rfl, rfl, ?_, rfl, rfl⟩
  rintro ⟨l, hl, h⟩
  injection hl with hl
  subst hl
  revert h
  decide

end OWorld

end Cnine
