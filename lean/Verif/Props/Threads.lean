import Verif.Lemmas.Threads

/-! # C52–C55, C97–C99: thread groups, parallel loops, parallel visits of cells -/

namespace Cnine

namespace TGroup

variable {σ : Type _}

/-! ## C52 -/

/-- In every state of every schedule at most `max` threads are between their creation and the decrement of the counter; in
particular at most `max` tasks run. -/
theorem C52_limit {f : Nat → σ → σ} {max : Int} {calls : List (List Nat)} {m : σ} {s : TGroup σ}
    (h : Reach f max (init calls m) s) (hm : 0 ≤ max) :
    (s.workers.countP (fun w => w.2 = .ready ∨ w.2 = .running ∨ w.2 = .ran) : Int) ≤ max ∧
    (s.workers.countP (fun w => w.2 = .running) : Int) ≤ max := by
  have i := inv_reach h
  have h1 := i.cnt
  have h2 := i.lim
  have h3 : s.workers.countP (fun w => w.2 = .ready ∨ w.2 = .running ∨ w.2 = .ran) = s.workers.countP active := rfl
  have h4 : s.workers.countP (fun w => w.2 = .running) ≤ s.workers.countP active := by
    apply List.countP_mono_left
    intro w _ hw
    simp only [decide_eq_true_eq, active] at hw ⊢
    exact Or.inr (Or.inl hw)
  omega

/-- No task is ever run more often than it was added, at any point of any schedule; and the memory is the result of the
finished tasks, in the order they finished. -/
theorem C52_at_most_once {f : Nat → σ → σ} {max : Int} {calls : List (List Nat)} {m : σ} {s : TGroup σ}
    (h : Reach f max (init calls m) s) :
    (∀ t, s.log.count t ≤ calls.flatten.count t) ∧ s.mem = s.log.foldl (fun m t => f t m) m := by
  have i := inv_reach h
  refine ⟨fun t => ?_, i.mem⟩
  rw [i.log.count_eq, ← i.tasks.count_eq]
  rw [List.append_assoc, List.count_append]
  have : (List.map Prod.fst (List.filter didRun s.workers)).Sublist (s.workers.map Prod.fst) :=
    List.Sublist.map _ List.filter_sublist
  have := this.count_le t
  omega

/-- When the destructor returns, every added task has run exactly once and all threads have ended. -/
theorem C52_done {f : Nat → σ → σ} {max : Int} {calls : List (List Nat)} {m : σ} {s : TGroup σ}
    (h : Reach f max (init calls m) s) (d : s.Done) :
    s.log.Perm calls.flatten ∧ (∀ w ∈ s.workers, w.2 = .ended) ∧ s.nrunning = 0 := by
  have i := inv_reach h
  obtain ⟨-, h2, h3, h4⟩ := i.dtor _ d
  have hall : ∀ w ∈ s.workers, w.2 = .ended := by
    intro w hw
    obtain ⟨j, hj, rfl⟩ := List.getElem_of_mem hw
    obtain ⟨t, ht⟩ := h2 j hj
    rw [List.getElem?_eq_getElem hj] at ht
    injection ht with ht
    rw [ht]
  refine ⟨?_, hall, ?_⟩
  · refine i.log.trans (List.Perm.trans ?_ i.tasks)
    rw [List.filter_eq_self.mpr (fun w hw => by simp [didRun, hall w hw]), h3, List.flatten_eq_nil_iff.mpr h4]
    simp [csTask]
  · have := i.cnt
    rw [h3, List.countP_eq_zero.mpr (fun w hw => by simp [active, hall w hw])] at this
    exact this

/-- Schedules are short: apart from spurious wake-ups, the atomic actions are at most sixteen per task and one more.  (`sp`
says which steps may be spurious wake-ups; each can cost three steps.) -/
theorem C52_terminates {f : Nat → σ → σ} {max : Int} {calls : List (List Nat)} {m : σ} (run : Nat → TGroup σ) (sp : Nat → Bool)
    (N : Nat) (h0 : run 0 = init calls m) (hs : ∀ i < N, Step f max (run i) (run (i + 1)))
    (ha : ∀ i < N, sp i = false → Act f max (run i) (run (i + 1))) :
    N ≤ 16 * calls.flatten.length + 1 + 3 * (List.range N).countP sp := by
  have key : ∀ k ≤ N, Inv f max calls m (run k) ∧
      weight calls.flatten.length (run k) + k ≤ 16 * calls.flatten.length + 1 + 3 * (List.range k).countP sp := by
    intro k
    induction k with
    | zero =>
      intro _
      rw [h0]
      refine ⟨inv_init f max calls m, ?_⟩
      simp [weight, init, csWeight, joinWeight]
      omega
    | succ k ih =>
      intro hk
      obtain ⟨i1, i2⟩ := ih (by omega)
      refine ⟨inv_step i1 (hs k hk), ?_⟩
      rw [List.range_succ, List.countP_append]
      have hw : weight calls.flatten.length (run (k + 1)) ≤ weight calls.flatten.length (run k) + 2 := by
        exact weight_step i1 (hs k hk)
      by_cases c : sp k = true
      · rw [List.countP_cons_of_pos c]
        simp only [List.countP_nil]
        omega
      · have := weight_act i1 (ha k hk (by simpa using c))
        omega
  have := (key N (Nat.le_refl N)).2
  omega

/-- A schedule with one task, from beginning to end. -/
theorem exOne (f : Nat → σ → σ) (t : Nat) (m : σ) :
    Reach f 2 (init [[t]] m) ⟨0, none, [[]], [(t, .ended)], some 1, f t m, [t]⟩ := by
  refine .tail (.tail (.tail (.tail (.tail (.tail (.tail (.tail (.tail (.tail .refl (.act (.enter _ 0 t [] rfl rfl rfl)))
    (.act (.free _ t rfl (by simp [init])))) (.act (.inc _ t rfl))) (.act (.spawn _ t rfl))) (.act (.start _ 0 t rfl)))
    (.act (.finish _ 0 t rfl))) (.act (.dec _ 0 t rfl))) (.act (.notify _ 0 t rfl))) (.act (.destroy _ rfl rfl (by simp [init]))))
    (.act (.join _ 0 t rfl rfl))

example : ∃ s, Reach (fun t m => m + t) 2 (init [[7]] 1) s ∧ s.Done ∧ s.log = [7] ∧ s.mem = 8 :=
  ⟨_, exOne _ 7 1, rfl, rfl, rfl⟩

/-! ## C53 -/

/-- **The progress claim is false.**  With `maxthreads = 1` and two tasks there is a schedule after which the counter is 0 and
every thread has ended, the adding thread sleeps in `wait` though its condition holds, and no action is possible: the
notification came after the condition was evaluated and before the thread slept (the counter is changed without holding
`start_thread_mx`).  Only a spurious wake-up, which nothing promises, leads on; without one the second task never runs. -/
theorem C53_lost_wakeup_fails (f : Nat → σ → σ) (m : σ) :
    ∃ s, Reach f 1 (init [[0, 1]] m) s ∧ s.nrunning = 0 ∧ (∀ w ∈ s.workers, w.2 = .ended) ∧ s.cs = some (1, .asleep) ∧
      1 ∉ s.log ∧ ¬ s.Done ∧ ∀ s', ¬ Act f 1 s s' := by
  refine ⟨⟨0, some (1, .asleep), [[]], [(0, .ended)], none, f 0 m, [0]⟩, ?_, rfl, by simp, rfl, by simp, by simp [Done], ?_⟩
  · exact .tail (.tail (.tail (.tail (.tail (.tail (.tail (.tail (.tail (.tail (.tail (.tail .refl
      (.act (.enter _ 0 0 [1] rfl rfl rfl))) (.act (.free _ 0 rfl (by simp [init])))) (.act (.inc _ 0 rfl))) (.act (.spawn _ 0 rfl)))
      (.act (.enter _ 0 1 [] rfl rfl rfl))) (.act (.full _ 1 rfl (by simp [init])))) (.act (.fail _ 1 rfl (by simp [init]))))
      (.act (.start _ 0 0 rfl))) (.act (.finish _ 0 0 rfl))) (.act (.dec _ 0 0 rfl))) (.act (.notify _ 0 0 rfl)))
      (.act (.block _ 1 rfl))
  · intro s' a
    have hw : ∀ (k t : Nat) (p : TaskPc), ([(0, TaskPc.ended)] : List (Nat × TaskPc))[k]? = some (t, p) → p = .ended := by
      intro k t p h
      cases k with
      | zero => simp at h; exact h.2.symm
      | succ k => simp at h
    cases a with
    | enter a t rest hd hc ht => cases hc
    | full t hc => cases hc
    | free t hc => cases hc
    | pass t hc => cases hc
    | fail t hc => cases hc
    | block t hc => cases hc
    | inc t hc => cases hc
    | spawn t hc => cases hc
    | start k t hk => cases hw _ _ _ hk
    | finish k t hk => cases hw _ _ _ hk
    | dec k t hk => cases hw _ _ _ hk
    | notify k t hk => cases hw _ _ _ hk
    | destroy hd hc => cases hc
    | join k t hd => cases hd

/-- A schedule can stop in no other way: if no action is possible, then the destructor has returned, or a wake-up was lost as
above (a thread sleeps in `wait`, and everything else has ended), or `maxthreads ≤ 0`. -/
theorem C53_only_lost_partial {f : Nat → σ → σ} {max : Int} {calls : List (List Nat)} {m : σ} {s : TGroup σ}
    (h : Reach f max (init calls m) s) (hstop : ∀ s', ¬ Act f max s s') :
    s.Done ∨ ((∃ t, s.cs = some (t, .asleep)) ∧ (∀ w ∈ s.workers, w.2 = .ended) ∧ s.nrunning = 0 ∧ s.dtor = none) := by
  have i := inv_reach h
  have hall : ∀ w ∈ s.workers, w.2 = .ended := by
    rintro ⟨t, p⟩ hw
    obtain ⟨j, hj⟩ := List.getElem?_of_mem hw
    cases p with
    | ready => exact absurd (.start s j t hj) (hstop _)
    | running => exact absurd (.finish s j t hj) (hstop _)
    | ran => exact absurd (.dec s j t hj) (hstop _)
    | decd => exact absurd (.notify s j t hj) (hstop _)
    | ended => rfl
  have hcnt := i.cnt
  rw [List.countP_eq_zero.mpr (fun w hw => by simp [active, hall w hw])] at hcnt
  cases hc : s.cs with
  | some c =>
    obtain ⟨t, p⟩ := c
    cases p with
    | check =>
      by_cases c : s.nrunning ≥ max
      · exact absurd (.full s t hc c) (hstop _)
      · exact absurd (.free s t hc c) (hstop _)
    | test =>
      by_cases c : s.nrunning < max
      · exact absurd (.pass s t hc c) (hstop _)
      · exact absurd (.fail s t hc c) (hstop _)
    | presleep => exact absurd (.block s t hc) (hstop _)
    | asleep =>
      refine Or.inr ⟨⟨t, rfl⟩, hall, ?_, ?_⟩
      · rw [hc] at hcnt; exact hcnt
      · cases hd : s.dtor with
        | none => rfl
        | some k =>
          have := (i.dtor k hd).2.2.1
          rw [hc] at this; cases this
    | inc => exact absurd (.inc s t hc) (hstop _)
    | spawn => exact absurd (.spawn s t hc) (hstop _)
  | none =>
    left
    cases hd : s.dtor with
    | none =>
      refine absurd (.destroy s hd hc fun l hl => ?_) (hstop _)
      obtain ⟨a, ha⟩ := List.getElem?_of_mem hl
      cases l with
      | nil => rfl
      | cons t rest => exact absurd (.enter s a t rest hd hc ha) (hstop _)
    | some k =>
      obtain ⟨g1, -⟩ := i.dtor k hd
      by_cases c : k = s.workers.length
      · subst c; exact hd
      · have hk : k < s.workers.length := by omega
        have hj := List.getElem?_eq_getElem hk
        have he := hall _ (List.getElem_mem hk)
        refine absurd (.join s k (s.workers[k]).1 hd ?_) (hstop _)
        rw [hj, ← he]

/-- With no more tasks than `maxthreads` nobody ever waits, so every schedule leads to the end of the destructor. -/
theorem C98_few_tasks {f : Nat → σ → σ} {max : Int} {calls : List (List Nat)} {m : σ} (hn : (calls.flatten.length : Int) ≤ max)
    {s : TGroup σ} (h : Reach f max (init calls m) s) (hstop : ∀ s', ¬ Act f max s s') :
    s.Done ∧ s.log.Perm calls.flatten := by
  have hno : ∀ t p, s.cs = some (t, p) → p = .check ∨ p = .inc ∨ p = .spawn := by
    clear hstop
    induction h with
    | refl => intro t p hc; cases hc
    | @tail s s' r st ih =>
      intro t p hc'
      have i := inv_reach r
      cases st with
      | spurious t hc =>
        rcases ih _ _ hc with e | e | e <;> cases e
      | act a =>
        cases a with
        | enter a t rest hd hc ht => injection hc' with e; injection e with _ e; exact Or.inl e.symm
        | full t hc hge =>
          have h1 := i.cnt
          have h2 := i.tasks.length_eq
          rw [hc] at h1 h2
          simp only [csTask, csSpawn, List.length_append, List.length_map, List.length_cons, List.length_nil] at h1 h2
          have := List.countP_le_length (p := active) (l := s.workers)
          omega
        | free t hc => injection hc' with e; injection e with _ e; exact Or.inr (Or.inl e.symm)
        | pass t hc => injection hc' with e; injection e with _ e; exact Or.inr (Or.inl e.symm)
        | fail t hc => rcases ih _ _ hc with e | e | e <;> cases e
        | block t hc => rcases ih _ _ hc with e | e | e <;> cases e
        | inc t hc => injection hc' with e; injection e with _ e; exact Or.inr (Or.inr e.symm)
        | spawn t hc => cases hc'
        | start k t hk => exact ih _ p hc'
        | finish k t hk => exact ih _ p hc'
        | dec k t hk => exact ih _ p hc'
        | notify k t hk =>
          dsimp only [wake] at hc'
          split at hc'
          · rename_i hc
            rcases ih _ _ hc with e | e | e <;> cases e
          · exact ih _ p hc'
        | destroy hd hc => exact ih _ p hc'
        | join k t hd => exact ih _ p hc'
  rcases C53_only_lost_partial h hstop with d | ⟨⟨t, ht⟩, -⟩
  · exact ⟨d, (C52_done h d).1⟩
  · rcases hno _ _ ht with e | e | e <;> cases e

example : (([[7]] : List (List Nat)).flatten.length : Int) ≤ 2 := by decide

/-- With `maxthreads = 0` the first task already waits for ever. -/
theorem C53_zero_threads_fails (f : Nat → σ → σ) (m : σ) (t : Nat) {s : TGroup σ} (h : Reach f 0 (init [[t]] m) s) :
    s.log = [] ∧ ¬ s.Done := by
  have i := inv_reach h
  have hw : s.workers = [] ∧ s.dtor = none ∧ s.log = [] ∧ ((s.cs = none ∧ s.todo = [[t]]) ∨
      ∃ p, s.cs = some (t, p) ∧ (p = .check ∨ p = .test ∨ p = .presleep ∨ p = .asleep)) := by
    clear i
    induction h with
    | refl => exact ⟨rfl, rfl, rfl, Or.inl ⟨rfl, rfl⟩⟩
    | @tail s s' r st ih =>
      obtain ⟨h1, h2, h3, h4⟩ := ih
      have i := inv_reach r
      have hz : s.nrunning ≤ 0 := by have := i.lim; omega
      have hz' : 0 ≤ s.nrunning := by have := i.cnt; omega
      have hnw : ∀ (k u : Nat) (p : TaskPc), ¬ s.workers[k]? = some (u, p) := by
        intro k u p; rw [h1]; simp
      cases st with
      | spurious u hc =>
        rcases h4 with ⟨h4, -⟩ | ⟨p, hp, -⟩
        · rw [h4] at hc; cases hc
        · rw [hp] at hc
          injection hc with e; injection e with e _; subst e
          exact ⟨h1, h2, h3, Or.inr ⟨_, rfl, by simp⟩⟩
      | act a =>
        cases a with
        | enter a u rest hd hc ht =>
          rcases h4 with ⟨-, h4⟩ | ⟨p, hp, -⟩
          · rw [h4] at ht
            cases a with
            | zero =>
              simp at ht
              obtain ⟨rfl, rfl⟩ := ht
              exact ⟨h1, h2, h3, Or.inr ⟨_, rfl, by simp⟩⟩
            | succ a => simp at ht
          · rw [hp] at hc; cases hc
        | full u hc hge =>
          rcases h4 with ⟨h4, -⟩ | ⟨p, hp, -⟩
          · rw [h4] at hc; cases hc
          · rw [hp] at hc
            injection hc with e; injection e with e _; subst e
            exact ⟨h1, h2, h3, Or.inr ⟨_, rfl, by simp⟩⟩
        | free u hc hge => exact absurd hz' hge
        | pass u hc hlt => omega
        | fail u hc hge =>
          rcases h4 with ⟨h4, -⟩ | ⟨p, hp, -⟩
          · rw [h4] at hc; cases hc
          · rw [hp] at hc
            injection hc with e; injection e with e _; subst e
            exact ⟨h1, h2, h3, Or.inr ⟨_, rfl, by simp⟩⟩
        | block u hc =>
          rcases h4 with ⟨h4, -⟩ | ⟨p, hp, -⟩
          · rw [h4] at hc; cases hc
          · rw [hp] at hc
            injection hc with e; injection e with e _; subst e
            exact ⟨h1, h2, h3, Or.inr ⟨_, rfl, by simp⟩⟩
        | inc u hc =>
          rcases h4 with ⟨h4, -⟩ | ⟨p, hp, hq⟩
          · rw [h4] at hc; cases hc
          · rw [hp] at hc
            injection hc with e; injection e with _ e; subst e
            rcases hq with e | e | e | e <;> cases e
        | spawn u hc =>
          rcases h4 with ⟨h4, -⟩ | ⟨p, hp, hq⟩
          · rw [h4] at hc; cases hc
          · rw [hp] at hc
            injection hc with e; injection e with _ e; subst e
            rcases hq with e | e | e | e <;> cases e
        | start k u hk => exact absurd hk (hnw _ _ _)
        | finish k u hk => exact absurd hk (hnw _ _ _)
        | dec k u hk => exact absurd hk (hnw _ _ _)
        | notify k u hk => exact absurd hk (hnw _ _ _)
        | destroy hd hc ht =>
          rcases h4 with ⟨-, h4⟩ | ⟨p, hp, -⟩
          · have := ht [t] (by rw [h4]; simp)
            cases this
          · rw [hp] at hc; cases hc
        | join k u hd => rw [h2] at hd; cases hd
  exact ⟨hw.2.2.1, by simp [Done, hw.2.1]⟩

end TGroup

/-! ## C54 -/

/-- However the threads are scheduled, when `MultiLoop(n,lambda)` returns, `lambda(i)` has run exactly once for every `i<n`. -/
theorem C54_each_once {σ : Type _} {f : Nat → σ → σ} {n : Nat} {seq : Bool} {T : Int} {m m' : σ} {log : List Nat}
    (h : MultiLoopRuns f n seq T m m' log) : log.Perm (List.range n) ∧ m' = log.foldl (fun m i => f i m) m := by
  cases h with
  | sequential _ => exact ⟨List.Perm.refl _, rfl⟩
  | parallel s _ r d =>
    refine ⟨?_, (TGroup.C52_at_most_once r).2⟩
    simpa using (TGroup.C52_done r d).1

/-- Asked to be sequential, or with one thread, the loop runs in order. -/
theorem C54_sequential {σ : Type _} {f : Nat → σ → σ} {n : Nat} {seq : Bool} {T : Int} {m m' : σ} {log : List Nat}
    (h : MultiLoopRuns f n seq T m m' log) (hs : seq = true ∨ T ≤ 1) :
    log = List.range n ∧ m' = (List.range n).foldl (fun m i => f i m) m := by
  cases h with
  | sequential _ => exact ⟨rfl, rfl⟩
  | parallel s hn _ _ => exact absurd hs hn

/-- If the rounds commute (for instance because they write to different places), every schedule gives the memory of the
sequential loop. -/
theorem C54_commuting {σ : Type _} {f : Nat → σ → σ} {n : Nat} {seq : Bool} {T : Int} {m m' : σ} {log : List Nat}
    (h : MultiLoopRuns f n seq T m m' log) (hc : ∀ i < n, ∀ j < n, i ≠ j → ∀ m, f i (f j m) = f j (f i m)) :
    m' = (List.range n).foldl (fun m i => f i m) m := by
  obtain ⟨hp, hm⟩ := C54_each_once h
  rw [hm]
  refine hp.foldl_eq' ?_ m
  intro i hi j hj z
  rw [hp.mem_iff, List.mem_range] at hi hj
  by_cases e : i = j
  · subst e; rfl
  · exact hc j hj i hi (Ne.symm e) z

example : MultiLoopRuns (fun i (m : Nat) => m + 10 * i) 1 false 2 5 5 [0] :=
  .parallel ⟨0, none, [[]], [(0, .ended)], some 1, 5, [0]⟩ (by simp) (TGroup.exOne _ 0 5) rfl

example : MultiLoopRuns (fun i (m : Nat) => m + 10 * i) 3 false 1 5 35 [0, 1, 2] := .sequential (by simp)

example : ∀ i < 3, ∀ j < 3, i ≠ j → ∀ m : Nat, (m + 10 * j) + 10 * i = (m + 10 * i) + 10 * j := by intros; omega

/-! ## C97 -/

/-- Nested loops share the threads: whatever their sizes, a thread with `nthreads = T` never causes more than `T` (or 1, if `T`
is 0) innermost rounds to be active at once. -/
theorem C97_nested_budget {ns : List Nat} {T k : Nat} (h : NestedActive ns T k) : k ≤ max T 1 := by
  induction h with
  | body T => omega
  | idle ns T => omega
  | sequential n ns T k _ ih => exact ih
  | parallel n ns T ks hT hn hk _ ih =>
    have hsum : ∀ (l : List Nat) (b : Nat), (∀ k ∈ l, k ≤ b) → l.sum ≤ l.length * b := by
      intro l b
      induction l with
      | nil => intro _; simp
      | cons a l ihl =>
        intro h
        have h1 := h a (by simp)
        have h2 := ihl (fun k hk => h k (List.mem_cons_of_mem _ hk))
        rw [List.sum_cons, List.length_cons, Nat.succ_mul]
        omega
    have h1 := hsum ks (max (max 1 (T / n)) 1) ih
    have h2 : max (max 1 (T / n)) 1 = max 1 (T / n) := by omega
    rw [h2] at h1
    by_cases c : T / n ≤ 1
    · have : max 1 (T / n) = 1 := by omega
      rw [this] at h1
      omega
    · have h3 : max 1 (T / n) = T / n := by omega
      rw [h3] at h1
      have h4 : ks.length * (T / n) ≤ n * (T / n) := Nat.mul_le_mul_right _ hn
      have h5 : n * (T / n) ≤ T := Nat.mul_div_le T n
      omega

/-- The bound is reached: 4 rounds of 2 rounds with 8 threads. -/
example : NestedActive [4, 2] 8 8 := by
  have h1 : NestedActive [2] 2 2 := .parallel 2 [] 2 [1, 1] (by decide) (by decide) (by decide)
    (by intro k hk; simp at hk; subst hk; exact .body _)
  exact .parallel 4 [2] 8 [2, 2, 2, 2] (by decide) (by decide) (by decide) (by intro k hk; simp at hk; subst hk; exact h1)

/-! ## C55 -/

/-- Run sequentially, `for_each_cell_multi` hands every callback the addresses of its own batch and cell, in order: batch by
batch, cell by cell. -/
theorem C99_sequential {P : Nat → Nat → List Nat} {ncells np : Nat} (hP : ∀ b i, (P b i).length = np) {bs ptrs : List Nat}
    (hp : ptrs.length = np) {calls out : List (Nat × Nat × List Nat)} (h : CellSeq P ncells bs ptrs calls out) :
    out = calls ++ bs.flatMap fun b => (List.range ncells).map fun i => (b, i, P b i) := by
  induction h with
  | nil ptrs calls => simp
  | cons b bs ptrs ptrs' calls calls' out r _ ih =>
    obtain ⟨i, k, ht, -, hl, -, hc⟩ :=
      (cellOne_reach (calls0 := calls) (hP b) ⟨0, 0, rfl, Nat.zero_le _, hp, rfl, by simp⟩ r).ex
    injection ht with ht _
    injection ht with _ hi _
    subst hi
    dsimp only at hc
    rw [ih hl, hc, List.flatMap_cons, List.append_assoc]

/-- In any schedule of the threads, every callback is made exactly once. -/
theorem C99_once {P : Nat → Nat → List Nat} {ncells B : Nat} {ptrs : List Nat} {s : CellState}
    (r : CellReach P ncells ⟨ptrs, (List.range B).map (fun b => ⟨b, 0, 0⟩), []⟩ s) (hend : ∀ t ∈ s.threads, t.i = ncells) :
    (s.calls.map (fun c => (c.1, c.2.1))).Perm ((List.range B).flatMap fun b => (List.range ncells).map fun i => (b, i)) := by
  have h := cells_called (by simp [List.flatMap_map]) r
  have hb := cells_threads r
  refine h.trans (List.Perm.of_eq ?_)
  have e : (List.range B).flatMap (fun b => (List.range ncells).map fun i => (b, i)) =
      (s.threads.map (·.b)).flatMap (fun b => (List.range ncells).map fun i => (b, i)) := by
    rw [hb]; simp [Function.comp_def]
  rw [e, List.flatMap_map]
  exact List.flatMap_congr fun t ht => by rw [hend t ht]

/-- The addresses of two cells of two operands with two batches; the second operand is not batched. -/
def exArgs : List CellArg := [⟨100, 10, [1]⟩, ⟨500, 0, [1]⟩]

/-- **With two threads the claim is false.**  Two batches of one cell: thread 0 points the shared views to its cell, thread 1
points them to its own, thread 0 calls the lambda: the callback of batch 0 gets the cell of batch 1. -/
theorem C55_race_fails : ∃ P : Nat → Nat → List Nat, (∀ b i, i < 1 → cellPtrs [1] exArgs b i = .ok (P b i)) ∧
    (∀ b i, (P b i).length = 2) ∧ ∃ s, CellReach P 1 ⟨[0, 0], [⟨0, 0, 0⟩, ⟨1, 0, 0⟩], []⟩ s ∧
      (∀ t ∈ s.threads, t.i = 1) ∧ s.calls = [(0, 0, P 1 0), (1, 0, P 1 0)] ∧ P 1 0 ≠ P 0 0 := by
  refine ⟨fun b i => [100 + 10 * b + i, 500 + i], ?_, fun _ _ => rfl, ?_⟩
  · intro b i hi
    have : i = 0 := by omega
    subst this
    simp [cellPtrs, exArgs, CellArg.cell, decode, decodeRev, offs, offsLoop, Res.assrt, Nat.mul_comm]
  · refine ⟨⟨[110, 500], [⟨0, 1, 0⟩, ⟨1, 1, 0⟩], [(0, 0, [110, 500]), (1, 0, [110, 500])]⟩, ?_, by simp, rfl, by decide⟩
    exact .tail (.tail (.tail (.tail (.tail (.tail .refl (.assign _ 0 0 0 0 100 rfl (by decide) rfl))
      (.assign _ 0 0 0 1 500 rfl (by decide) rfl)) (.assign _ 1 1 0 0 110 rfl (by decide) rfl))
      (.assign _ 1 1 0 1 500 rfl (by decide) rfl)) (.call _ 0 0 0 2 rfl (by decide) rfl)) (.call _ 1 1 0 2 rfl (by decide) rfl)

/-- The same two batches one after the other. -/
example : CellSeq (fun b i => [100 + 10 * b + i, 500 + i]) 1 [0, 1] [0, 0] [] [(0, 0, [100, 500]), (1, 0, [110, 500])] :=
  .cons 0 [1] [0, 0] [100, 500] [] [(0, 0, [100, 500])] _
    (.tail (.tail (.tail .refl (.assign _ 0 0 0 0 100 rfl (by decide) rfl)) (.assign _ 0 0 0 1 500 rfl (by decide) rfl))
      (.call _ 0 0 0 2 rfl (by decide) rfl))
    (.cons 1 [] [100, 500] [110, 500] _ _ _
      (.tail (.tail (.tail .refl (.assign _ 0 1 0 0 110 rfl (by decide) rfl)) (.assign _ 0 1 0 1 500 rfl (by decide) rfl))
        (.call _ 0 1 0 2 rfl (by decide) rfl)) (.nil _ _))

end Cnine
