import Verif.Model.Threads
import Mathlib.Data.List.Perm.Basic
import Mathlib.Data.List.Perm.Subperm

/-! # The invariant of thread groups -/

namespace Cnine

namespace TGroup

variable {σ : Type _}

/-- Replacing one element, seen up to order. -/
theorem set_perm {β : Type _} : ∀ {l : List β} {k : Nat} {x : β}, l[k]? = some x →
    ∃ l', l.Perm (x :: l') ∧ ∀ y, (l.set k y).Perm (y :: l')
  | a :: l, 0, x, h => by
    simp at h
    subst h
    exact ⟨l, List.Perm.refl _, fun y => List.Perm.refl _⟩
  | a :: l, k + 1, x, h => by
    simp at h
    obtain ⟨l', h1, h2⟩ := set_perm h
    refine ⟨a :: l', (h1.cons a).trans (List.Perm.swap x a l'), fun y => ?_⟩
    rw [List.set_cons_succ]
    exact ((h2 y).cons a).trans (List.Perm.swap y a l')

/-- The thread counts in `nrunning`. -/
def active (w : Nat × TaskPc) : Bool := w.2 = .ready ∨ w.2 = .running ∨ w.2 = .ran

/-- The task of the thread is done. -/
def didRun (w : Nat × TaskPc) : Bool := w.2 = .ran ∨ w.2 = .decd ∨ w.2 = .ended

/-- The task being added. -/
def csTask : Option (Nat × AddPc) → List Nat
  | some (t, _) => [t]
  | none => []

/-- Between lines 66 and 67. -/
def csSpawn : Option (Nat × AddPc) → Nat
  | some (_, .spawn) => 1
  | _ => 0

structure Inv (f : Nat → σ → σ) (max : Int) (calls : List (List Nat)) (m : σ) (s : TGroup σ) : Prop where
  cnt : s.nrunning = (s.workers.countP active + csSpawn s.cs : Nat)
  lim : s.nrunning ≤ Max.max max 0
  pre : ∀ t, s.cs = some (t, .inc) → s.nrunning < max
  tasks : (s.workers.map Prod.fst ++ csTask s.cs ++ s.todo.flatten).Perm calls.flatten
  log : s.log.Perm ((s.workers.filter didRun).map Prod.fst)
  mem : s.mem = s.log.foldl (fun m t => f t m) m
  dtor : ∀ k, s.dtor = some k → k ≤ s.workers.length ∧ (∀ j < k, ∃ t, s.workers[j]? = some (t, .ended)) ∧ s.cs = none ∧
    ∀ l ∈ s.todo, l = []

theorem inv_init (f : Nat → σ → σ) (max : Int) (calls : List (List Nat)) (m : σ) : Inv f max calls m (init calls m) where
  cnt := rfl
  lim := by simp [init]; omega
  pre := by simp [init]
  tasks := by simp [init, csTask]
  log := by simp [init]
  mem := rfl
  dtor := by simp [init]

theorem wake_task (c : Option (Nat × AddPc)) : csTask (wake c) = csTask c := by
  unfold wake; split <;> rfl

theorem wake_spawn (c : Option (Nat × AddPc)) : csSpawn (wake c) = csSpawn c := by
  unfold wake; split <;> rfl

theorem wake_inc {c : Option (Nat × AddPc)} {t : Nat} (h : wake c = some (t, .inc)) : c = some (t, .inc) := by
  unfold wake at h
  split at h
  · cases h
  · exact h

theorem flatten_set {l : List (List Nat)} {a t : Nat} {rest : List Nat} (h : l[a]? = some (t :: rest)) :
    (t :: (l.set a rest).flatten).Perm l.flatten := by
  obtain ⟨l', h1, h2⟩ := set_perm h
  have e1 := h1.flatten
  have e2 := (h2 rest).flatten
  rw [List.flatten_cons] at e1 e2
  rw [List.cons_append] at e1
  exact (e2.cons t).trans e1.symm

/-- What replacing one worker does to the invariant. -/
theorem set_worker {ws : List (Nat × TaskPc)} {k t : Nat} {p : TaskPc} (h : ws[k]? = some (t, p)) (q : TaskPc) :
    ((ws.set k (t, q)).map Prod.fst).Perm (ws.map Prod.fst) ∧
    (ws.set k (t, q)).countP active + (if active (t, p) then 1 else 0) = ws.countP active + (if active (t, q) then 1 else 0) ∧
    (didRun (t, p) = didRun (t, q) →
      (((ws.set k (t, q)).filter didRun).map Prod.fst).Perm ((ws.filter didRun).map Prod.fst)) ∧
    (didRun (t, p) = false → didRun (t, q) = true →
      (t :: (ws.filter didRun).map Prod.fst).Perm (((ws.set k (t, q)).filter didRun).map Prod.fst)) := by
  obtain ⟨l', h1, h2⟩ := set_perm h
  have h2 := h2 (t, q)
  refine ⟨?_, ?_, ?_, ?_⟩
  · exact (h2.map _).trans (h1.map Prod.fst).symm
  · rw [h1.countP_eq, h2.countP_eq, List.countP_cons, List.countP_cons]
    split <;> split <;> omega
  · intro e
    refine ((h2.filter _).map _).trans (List.Perm.trans ?_ ((h1.filter _).map _).symm)
    by_cases c : didRun (t, q) = true
    · rw [List.filter_cons_of_pos c, List.filter_cons_of_pos (e.trans c)]; exact List.Perm.refl _
    · rw [List.filter_cons_of_neg c, List.filter_cons_of_neg (by rw [e]; exact c)]
  · intro e1 e2
    refine List.Perm.trans ?_ ((h2.filter _).map _).symm
    rw [List.filter_cons_of_pos e2, List.map_cons]
    refine List.Perm.cons _ (((h1.filter _).map _).trans ?_)
    rw [List.filter_cons_of_neg (by rw [e1]; exact Bool.false_ne_true)]

theorem inv_set_cs {f : Nat → σ → σ} {max : Int} {calls : List (List Nat)} {m : σ} {s : TGroup σ} (h : Inv f max calls m s)
    {t : Nat} {p q : AddPc} (hc : s.cs = some (t, p)) (hp : csSpawn (some (t, p)) = csSpawn (some (t, q)))
    (hi : q = .inc → s.nrunning < max) : Inv f max calls m { s with cs := some (t, q) } where
  cnt := by have := h.cnt; rw [hc, hp] at this; exact this
  lim := h.lim
  pre := by
    intro t' e
    injection e with e
    injection e with _ e
    exact hi e
  tasks := by have := h.tasks; rw [hc] at this; exact this
  log := h.log
  mem := h.mem
  dtor := by
    intro k hk
    have := (h.dtor k hk).2.2.1
    rw [hc] at this
    cases this

theorem inv_act {f : Nat → σ → σ} {max : Int} {calls : List (List Nat)} {m : σ} {s s' : TGroup σ} (h : Inv f max calls m s)
    (a : Act f max s s') : Inv f max calls m s' := by
  cases a with
  | enter a t rest hd hc ht =>
    refine ⟨?_, h.lim, ?_, ?_, h.log, h.mem, ?_⟩
    · have := h.cnt; rw [hc] at this; exact this
    · intro t' e; injection e with e; injection e with _ e; cases e
    · have := h.tasks
      rw [hc] at this
      simp only [csTask, List.append_nil] at this ⊢
      refine List.Perm.trans ?_ this
      rw [List.append_assoc]
      exact List.Perm.append_left _ (flatten_set ht)
    · intro k hk
      rw [hd] at hk; cases hk
  | full t hc hn => exact inv_set_cs h hc rfl (fun e => by cases e)
  | free t hc hn => exact inv_set_cs h hc rfl (fun _ => by omega)
  | pass t hc hn => exact inv_set_cs h hc rfl (fun _ => hn)
  | fail t hc hn => exact inv_set_cs h hc rfl (fun e => by cases e)
  | block t hc => exact inv_set_cs h hc rfl (fun e => by cases e)
  | inc t hc =>
    have hp := h.pre t hc
    refine ⟨?_, ?_, ?_, ?_, h.log, h.mem, ?_⟩
    · have := h.cnt
      rw [hc] at this
      simp only [csSpawn] at this ⊢
      omega
    · dsimp only; omega
    · intro t' e; injection e with e; injection e with _ e; cases e
    · have := h.tasks; rw [hc] at this; exact this
    · intro k hk
      have := (h.dtor k hk).2.2.1
      rw [hc] at this; cases this
  | spawn t hc =>
    refine ⟨?_, h.lim, ?_, ?_, ?_, h.mem, ?_⟩
    · have := h.cnt
      rw [hc] at this
      simp only [csSpawn, List.countP_append] at this ⊢
      rw [this]
      rfl
    · intro t' e; cases e
    · have := h.tasks
      rw [hc] at this
      simpa [csTask] using this
    · have := h.log
      rw [List.filter_append]
      simpa [didRun] using this
    · intro k hk
      have := (h.dtor k hk).2.2.1
      rw [hc] at this; cases this
  | start k t hk =>
    obtain ⟨e1, e2, e3, e4⟩ := set_worker hk .running
    refine ⟨?_, h.lim, h.pre, ?_, ?_, h.mem, ?_⟩
    · have := h.cnt
      have : (s.workers.set k (t, TaskPc.running)).countP active = s.workers.countP active := by
        have a1 : active (t, TaskPc.ready) = true := rfl
        have a2 : active (t, TaskPc.running) = true := rfl
        rw [a1, a2] at e2
        omega
      dsimp only
      rw [this]; exact h.cnt
    · exact ((e1.append_right _).append_right _).trans h.tasks
    · exact h.log.trans (e3 rfl).symm
    · intro d hd
      obtain ⟨g1, g2, g3, g4⟩ := h.dtor d hd
      refine ⟨by simpa using g1, fun j hj => ?_, g3, g4⟩
      obtain ⟨t', ht'⟩ := g2 j hj
      refine ⟨t', ?_⟩
      dsimp only
      rw [List.getElem?_set_ne, ht']
      rintro rfl
      rw [hk] at ht'; cases ht'
  | finish k t hk =>
    obtain ⟨e1, e2, e3, e4⟩ := set_worker hk .ran
    refine ⟨?_, h.lim, h.pre, ?_, ?_, ?_, ?_⟩
    · have : (s.workers.set k (t, TaskPc.ran)).countP active = s.workers.countP active := by
        have a1 : active (t, TaskPc.running) = true := rfl
        have a2 : active (t, TaskPc.ran) = true := rfl
        rw [a1, a2] at e2
        omega
      dsimp only
      rw [this]; exact h.cnt
    · exact ((e1.append_right _).append_right _).trans h.tasks
    · refine List.Perm.trans ?_ (e4 rfl rfl)
      refine (List.perm_append_comm (l₂ := [t])).trans ?_
      exact h.log.cons t
    · dsimp only
      rw [List.foldl_append, h.mem]; rfl
    · intro d hd
      obtain ⟨g1, g2, g3, g4⟩ := h.dtor d hd
      refine ⟨by simpa using g1, fun j hj => ?_, g3, g4⟩
      obtain ⟨t', ht'⟩ := g2 j hj
      refine ⟨t', ?_⟩
      dsimp only
      rw [List.getElem?_set_ne, ht']
      rintro rfl
      rw [hk] at ht'; cases ht'
  | dec k t hk =>
    obtain ⟨e1, e2, e3, e4⟩ := set_worker hk .decd
    have a1 : active (t, TaskPc.ran) = true := rfl
    have a2 : active (t, TaskPc.decd) = false := rfl
    rw [a1, a2] at e2
    simp only [if_true, Bool.false_eq_true, if_false] at e2
    refine ⟨?_, ?_, ?_, ?_, ?_, h.mem, ?_⟩
    · have := h.cnt
      dsimp only
      omega
    · have := h.lim; dsimp only; omega
    · intro t' e
      have := h.pre t' e
      dsimp only; omega
    · exact ((e1.append_right _).append_right _).trans h.tasks
    · exact h.log.trans (e3 rfl).symm
    · intro d hd
      obtain ⟨g1, g2, g3, g4⟩ := h.dtor d hd
      refine ⟨by simpa using g1, fun j hj => ?_, g3, g4⟩
      obtain ⟨t', ht'⟩ := g2 j hj
      refine ⟨t', ?_⟩
      dsimp only
      rw [List.getElem?_set_ne, ht']
      rintro rfl
      rw [hk] at ht'; cases ht'
  | notify k t hk =>
    obtain ⟨e1, e2, e3, e4⟩ := set_worker hk .ended
    have a1 : active (t, TaskPc.decd) = false := rfl
    have a2 : active (t, TaskPc.ended) = false := rfl
    rw [a1, a2] at e2
    refine ⟨?_, h.lim, ?_, ?_, ?_, h.mem, ?_⟩
    · have := h.cnt
      dsimp only
      rw [wake_spawn]
      omega
    · intro t' e
      exact h.pre t' (wake_inc e)
    · dsimp only
      rw [wake_task]
      exact ((e1.append_right _).append_right _).trans h.tasks
    · exact h.log.trans (e3 rfl).symm
    · intro d hd
      obtain ⟨g1, g2, g3, g4⟩ := h.dtor d hd
      refine ⟨by simpa using g1, fun j hj => ?_, by dsimp only; rw [g3]; rfl, g4⟩
      obtain ⟨t', ht'⟩ := g2 j hj
      dsimp only
      by_cases c : k = j
      · subst c
        rw [hk] at ht'; cases ht'
      · exact ⟨t', by rw [List.getElem?_set_ne c, ht']⟩
  | destroy hd hc ht =>
    refine ⟨h.cnt, h.lim, h.pre, h.tasks, h.log, h.mem, ?_⟩
    intro k hk
    injection hk with hk
    subst hk
    exact ⟨Nat.zero_le _, fun j hj => by omega, hc, ht⟩
  | join k t hd hk =>
    refine ⟨h.cnt, h.lim, h.pre, h.tasks, h.log, h.mem, ?_⟩
    intro k' hk'
    injection hk' with hk'
    subst hk'
    obtain ⟨g1, g2, g3, g4⟩ := h.dtor k hd
    have hlt : k < s.workers.length := (List.getElem?_eq_some_iff.mp hk).1
    refine ⟨hlt, fun j hj => ?_, g3, g4⟩
    by_cases c : j < k
    · exact g2 j c
    · have : j = k := by omega
      subst this
      exact ⟨t, hk⟩

theorem inv_step {f : Nat → σ → σ} {max : Int} {calls : List (List Nat)} {m : σ} {s s' : TGroup σ} (h : Inv f max calls m s)
    (a : Step f max s s') : Inv f max calls m s' := by
  cases a with
  | act a => exact inv_act h a
  | spurious t hc => exact inv_set_cs h hc rfl (fun e => by cases e)

theorem inv_reach {f : Nat → σ → σ} {max : Int} {calls : List (List Nat)} {m : σ} {s : TGroup σ}
    (h : Reach f max (init calls m) s) : Inv f max calls m s := by
  induction h with
  | refl => exact inv_init f max calls m
  | tail _ st ih => exact inv_step ih st

/-! ## Termination -/

/-- Actions a thread in `add` may still perform. -/
def csWeight : Option (Nat × AddPc) → Nat
  | none => 0
  | some (_, .check) => 14
  | some (_, .test) => 13
  | some (_, .presleep) => 12
  | some (_, .asleep) => 11
  | some (_, .inc) => 10
  | some (_, .spawn) => 9

def taskWeight (w : Nat × TaskPc) : Nat :=
  match w.2 with
  | .ready => 8
  | .running => 7
  | .ran => 6
  | .decd => 5
  | .ended => 0

def joinWeight (n : Nat) : Option Nat → Nat
  | none => n + 1
  | some k => n - k

/-- Decreases with every action; `n` is the number of tasks. -/
def weight (n : Nat) (s : TGroup σ) : Nat :=
  15 * s.todo.flatten.length + csWeight s.cs + (s.workers.map taskWeight).sum + joinWeight n s.dtor

theorem sum_set {ws : List (Nat × TaskPc)} {k t : Nat} {p : TaskPc} (h : ws[k]? = some (t, p)) (q : TaskPc) :
    ((ws.set k (t, q)).map taskWeight).sum + taskWeight (t, p) = (ws.map taskWeight).sum + taskWeight (t, q) := by
  obtain ⟨l', h1, h2⟩ := set_perm h
  rw [((h2 (t, q)).map _).sum_nat, (h1.map _).sum_nat, List.map_cons, List.map_cons, List.sum_cons, List.sum_cons]
  omega

theorem wake_weight (c : Option (Nat × AddPc)) : csWeight (wake c) ≤ csWeight c + 2 := by
  unfold wake; split
  · simp [csWeight]
  · omega

theorem weight_act {f : Nat → σ → σ} {max : Int} {calls : List (List Nat)} {m : σ} {s s' : TGroup σ} (h : Inv f max calls m s)
    (a : Act f max s s') : weight calls.flatten.length s' < weight calls.flatten.length s := by
  unfold weight
  cases a with
  | enter a t rest hd hc ht =>
    have := (flatten_set ht).length_eq
    rw [List.length_cons] at this
    rw [hc]
    simp only [csWeight]
    omega
  | full t hc hn => simp only [hc, csWeight]; omega
  | free t hc hn => simp only [hc, csWeight]; omega
  | pass t hc hn => simp only [hc, csWeight]; omega
  | fail t hc hn => simp only [hc, csWeight]; omega
  | block t hc => simp only [hc, csWeight]; omega
  | inc t hc => simp only [hc, csWeight]; omega
  | spawn t hc =>
    simp only [hc, csWeight, List.map_append, List.sum_append, List.map_cons, List.map_nil, List.sum_cons, List.sum_nil,
      taskWeight]
    omega
  | start k t hk =>
    have := sum_set hk .running
    simp only [taskWeight] at this ⊢
    omega
  | finish k t hk =>
    have := sum_set hk .ran
    simp only [taskWeight] at this ⊢
    omega
  | dec k t hk =>
    have := sum_set hk .decd
    simp only [taskWeight] at this ⊢
    omega
  | notify k t hk =>
    have := sum_set hk .ended
    have := wake_weight s.cs
    simp only [taskWeight] at *
    omega
  | destroy hd hc ht => simp only [hd, joinWeight]; omega
  | join k t hd hk =>
    have hlt : k < s.workers.length := (List.getElem?_eq_some_iff.mp hk).1
    have := h.tasks.length_eq
    simp only [List.length_append, List.length_map] at this
    simp only [hd, joinWeight]
    omega

theorem weight_step {f : Nat → σ → σ} {max : Int} {calls : List (List Nat)} {m : σ} {s s' : TGroup σ} (h : Inv f max calls m s)
    (a : Step f max s s') : weight calls.flatten.length s' ≤ weight calls.flatten.length s + 2 := by
  cases a with
  | act a => have := weight_act h a; omega
  | spurious t hc =>
    simp only [weight, hc, csWeight]
    omega

end TGroup

/-! ## Cells -/

theorem take_succ_set {l t : List Nat} {k p : Nat} (h : l.take k = t.take k) (hl : l.length = t.length) (hp : t[k]? = some p) :
    (l.set k p).take (k + 1) = t.take (k + 1) := by
  have hk : k < t.length := (List.getElem?_eq_some_iff.mp hp).1
  apply List.ext_getElem?
  intro n
  have hn := congrArg (fun x => x[n]?) h
  simp only [List.getElem?_take] at hn ⊢
  by_cases c : n < k
  · rw [if_pos c, if_pos c] at hn
    rw [if_pos (by omega), if_pos (by omega), List.getElem?_set_ne (by omega), hn]
  · by_cases d : n = k
    · subst d
      rw [if_pos (by omega), if_pos (by omega), List.getElem?_set_self (by omega), hp]
    · rw [if_neg (by omega), if_neg (by omega)]

/-- A single thread: the views hold what it put there. -/
structure CellOne (P : Nat → Nat → List Nat) (b np : Nat) (calls0 : List (Nat × Nat × List Nat)) (s : CellState) : Prop where
  ex : ∃ i k, s.threads = [⟨b, i, k⟩] ∧ k ≤ np ∧ s.ptrs.length = np ∧ s.ptrs.take k = (P b i).take k ∧
    s.calls = calls0 ++ (List.range i).map (fun i => (b, i, P b i))

theorem cellOne_reach {P : Nat → Nat → List Nat} {ncells b np : Nat} (hP : ∀ i, (P b i).length = np) {s s' : CellState}
    {calls0 : List (Nat × Nat × List Nat)} (h : CellOne P b np calls0 s) (r : CellReach P ncells s s') : CellOne P b np calls0 s' := by
  induction r with
  | refl => exact h
  | tail _ st ih =>
    obtain ⟨i, k, ht, hk, hl, hp, hc⟩ := ih
    cases st with
    | assign j b' i' k' p hj hi hpk =>
      rw [ht] at hj
      cases j with
      | succ j => simp at hj
      | zero =>
        simp at hj
        obtain ⟨rfl, rfl, rfl⟩ := hj
        have hkl : k < np := by
          rw [← hP i]; exact (List.getElem?_eq_some_iff.mp hpk).1
        exact ⟨i, k + 1, by rw [ht]; rfl, hkl, by simpa using hl, take_succ_set hp (by rw [hl, hP]) hpk, hc⟩
    | call j b' i' k' hj hi hk' =>
      rw [ht] at hj
      cases j with
      | succ j => simp at hj
      | zero =>
        simp at hj
        obtain ⟨rfl, rfl, rfl⟩ := hj
        refine ⟨i + 1, 0, by rw [ht]; rfl, Nat.zero_le _, hl, rfl, ?_⟩
        dsimp only
        rw [hc, List.range_succ, List.map_append, List.append_assoc]
        rw [hk', List.take_length] at hp
        rw [List.take_of_length_le (by rw [hl, hP]; exact Nat.le_refl _)] at hp
        rw [hp]; rfl

/-- Which callbacks were made. -/
theorem cells_called {P : Nat → Nat → List Nat} {ncells : Nat} {s s' : CellState}
    (h : (s.calls.map (fun c => (c.1, c.2.1))).Perm (s.threads.flatMap fun t => (List.range t.i).map fun i => (t.b, i)))
    (r : CellReach P ncells s s') :
    (s'.calls.map (fun c => (c.1, c.2.1))).Perm (s'.threads.flatMap fun t => (List.range t.i).map fun i => (t.b, i)) := by
  induction r with
  | refl => exact h
  | tail _ st ih =>
    cases st with
    | assign j b i k p hj hi hpk =>
      obtain ⟨l', h1, h2⟩ := TGroup.set_perm hj
      refine ih.trans ?_
      exact (h1.flatMap_right _).trans
        (((h2 ⟨b, i, k + 1⟩).flatMap_right fun t => (List.range t.i).map fun i => (t.b, i)).symm)
    | call j b i k hj hi hk =>
      obtain ⟨l', h1, h2⟩ := TGroup.set_perm hj
      refine List.Perm.trans ?_ (((h2 ⟨b, i + 1, 0⟩).flatMap_right _).symm)
      have e := ih.trans (h1.flatMap_right _)
      simp only [List.map_append, List.map_cons, List.map_nil, List.flatMap_cons] at e ⊢
      rw [List.range_succ, List.map_append, List.append_assoc]
      refine (e.append_right _).trans ?_
      rw [List.append_assoc]
      exact List.Perm.append_left _ List.perm_append_comm

/-- Each thread keeps its batch and counts up to `ncells`. -/
theorem cells_threads {P : Nat → Nat → List Nat} {ncells : Nat} {s s' : CellState} (r : CellReach P ncells s s') :
    s'.threads.map (·.b) = s.threads.map (·.b) := by
  induction r with
  | refl => rfl
  | tail _ st ih =>
    rw [← ih]
    cases st with
    | assign j b i k p hj hi hpk =>
      dsimp only
      rw [List.map_set]
      apply List.ext_getElem?
      intro n
      rw [List.getElem?_set]
      split
      · rename_i e; subst e
        rw [List.getElem?_map, hj]
        split
        · rfl
        · rename_i c
          exact absurd (by rw [List.length_map]; exact (List.getElem?_eq_some_iff.mp hj).1) c
      · rfl
    | call j b i k hj hi hk =>
      dsimp only
      rw [List.map_set]
      apply List.ext_getElem?
      intro n
      rw [List.getElem?_set]
      split
      · rename_i e; subst e
        rw [List.getElem?_map, hj]
        split
        · rfl
        · rename_i c
          exact absurd (by rw [List.length_map]; exact (List.getElem?_eq_some_iff.mp hj).1) c
      · rfl

end Cnine
