import Verif.Spec.Gpu
import Mathlib.Data.List.Nodup
import Mathlib.Data.List.Basic
import Mathlib.Data.List.Flatten
import Mathlib.Data.List.Range

/-!
# Threads that do not disturb each other

If every thread of a launch writes cells of its own, which no other thread reads or writes, then every order of the accesses leads to the same memory.
-/

namespace Cnine

variable {α β γ ι : Type}

namespace Gpu

theorem Thr.run_bind (x : Thr α β) (f : β → Thr α γ) (m : Buf α) : (x >>= f).run m = x.run m >>= fun s => (f s.2).run s.1 := by
  change (x.bind f).run m = _
  induction x generalizing m with
  | ret b => rfl
  | read p k ih =>
    simp only [Thr.bind, Thr.run]
    cases m p with
    | none => rfl
    | some v => exact ih v m
  | write p v k ih =>
    simp only [Thr.bind, Thr.run]
    cases m p with
    | none => rfl
    | some _ => exact ih _
  | fail => rfl

theorem Thr.run_ret (b : β) (m : Buf α) : (pure b : Thr α β).run m = .ok (m, b) := rfl

theorem Thr.run_rd {m : Buf α} {p : Nat} {v : α} (h : m p = some v) : (Thr.rd p).run m = .ok (m, v) := by simp [Thr.rd, Thr.run, h]

theorem Thr.run_wr {m : Buf α} {p : Nat} {w : α} (v : α) (h : m p = some w) : (Thr.wr p v).run m = .ok (fun q => if q = p then some v else m q, ()) := by
  simp [Thr.wr, Thr.run, h]

theorem Thr.run_inc [Add α] {m : Buf α} {p : Nat} {w : α} (v : α) (h : m p = some w) : (Thr.inc p v).run m = .ok (fun q => if q = p then some (w + v) else m q, ()) := by
  rw [Thr.inc, Thr.run_bind, Thr.run_rd h, Res.ok_bind]
  exact Thr.run_wr _ h

/-- A loop that only reads. -/
theorem Thr.run_loop {m : Buf α} (n : Nat) (b : β) (f : Nat → β → Thr α β) (g : Nat → β) (h0 : g 0 = b) (hs : ∀ i, i < n → (f i (g i)).run m = .ok (m, g (i + 1))) :
    (Thr.loop n b f).run m = .ok (m, g n) := by
  induction n with
  | zero => rw [h0]; rfl
  | succ n ih =>
    rw [Thr.loop, Thr.run_bind, ih fun i hi => hs i (by omega), Res.ok_bind]
    exact hs n (by omega)

theorem Within.ret {R W : Nat → Prop} (b : β) : Within R W (pure b : Thr α β) := trivial

theorem Within.rd {R W : Nat → Prop} {p : Nat} (h : R p ∨ W p) : Within R W (Thr.rd p : Thr α α) := ⟨h, fun _ => trivial⟩

theorem Within.wr {R W : Nat → Prop} {p : Nat} {v : α} (h : W p) : Within R W (Thr.wr p v) := ⟨h, trivial⟩

theorem Within.bind {R W : Nat → Prop} {x : Thr α β} {f : β → Thr α γ} (hx : Within R W x) (hf : ∀ b, Within R W (f b)) : Within R W (x >>= f) := by
  change Within R W (x.bind f)
  induction x with
  | ret b => exact hf b
  | read p k ih => exact ⟨hx.1, fun v => ih v (hx.2 v)⟩
  | write p v k ih => exact ⟨hx.1, ih hx.2⟩
  | fail => trivial

theorem Within.inc [Add α] {R W : Nat → Prop} {p : Nat} {v : α} (h : W p) : Within R W (Thr.inc p v) :=
  (Within.rd (.inr h)).bind fun _ => Within.wr h

theorem Within.loop {R W : Nat → Prop} {n : Nat} {b : β} {f : Nat → β → Thr α β} (h : ∀ i, i < n → ∀ b, Within R W (f i b)) : Within R W (Thr.loop n b f) := by
  induction n with
  | zero => trivial
  | succ n ih => exact (ih fun i hi => h i (by omega)).bind fun b => h n (by omega) b

/-- A thread sees only its cells. -/
theorem run_congr {R W : Nat → Prop} (t : Thr α β) (hw : Within R W t) (m1 m2 : Buf α) (h : ∀ p, R p ∨ W p → m1 p = m2 p) (m1' : Buf α) (b : β) (hr : t.run m1 = .ok (m1', b)) :
    ∃ m2', t.run m2 = .ok (m2', b) ∧ (∀ p, R p ∨ W p → m1' p = m2' p) ∧ ∀ p, ¬ W p → m2' p = m2 p := by
  induction t generalizing m1 m2 with
  | ret c =>
    simp only [Thr.run, Res.ok.injEq, Prod.mk.injEq] at hr
    obtain ⟨rfl, rfl⟩ := hr
    exact ⟨m2, rfl, h, fun _ _ => rfl⟩
  | read p k ih =>
    simp only [Thr.run, h p hw.1] at hr ⊢
    cases hp : m2 p with
    | none => rw [hp] at hr; cases hr
    | some v =>
      rw [hp] at hr
      exact ih v (hw.2 v) m1 m2 h hr
  | write p v k ih =>
    simp only [Thr.run, h p (.inr hw.1)] at hr ⊢
    cases hp : m2 p with
    | none => rw [hp] at hr; cases hr
    | some w =>
      rw [hp] at hr
      obtain ⟨m2', e1, e2, e3⟩ := ih hw.2 _ (fun q => if q = p then some v else m2 q) (fun q hq => by simp only [h q hq]) hr
      refine ⟨m2', e1, e2, fun q hq => ?_⟩
      rw [e3 q hq, if_neg fun e => hq (by rw [e]; exact hw.1)]
  | fail => cases hr

theorem run_frame {R W : Nat → Prop} (t : Thr α β) (hw : Within R W t) (m m' : Buf α) (b : β) (hr : t.run m = .ok (m', b)) : ∀ p, ¬ W p → m' p = m p := by
  obtain ⟨m2, e, _, h⟩ := run_congr t hw m m (fun _ _ => rfl) m' b hr
  rw [hr] at e
  cases e
  exact h

/-- The threads in the course of a launch: what each still has to do ends as it would have alone. -/
structure Inv (R W : Nat → Nat → Prop) (m0 : Buf α) (F : Nat → Buf α) (n : Nat) (s : Buf α × List (Thr α Unit)) : Prop where
  len : s.2.length = n
  within : ∀ i t, s.2[i]? = some t → Within (R i) (W i) t
  runs : ∀ i t, s.2[i]? = some t → ∃ m', t.run s.1 = .ok (m', ()) ∧ ∀ p, W i p → m' p = F i p
  frame : ∀ p, (∀ i, i < n → ¬ W i p) → s.1 p = m0 p

theorem inv_step {R W : Nat → Nat → Prop} {m0 : Buf α} {F : Nat → Buf α} {n : Nat} (hsep : ∀ i j, i < n → j < n → i ≠ j → ∀ p, W i p → ¬ W j p ∧ ¬ R j p)
    {s : Buf α × List (Thr α Unit)} (h : Inv R W m0 F n s) (i : Nat) : ∃ s', step i s = .ok s' ∧ Inv R W m0 F n s' := by
  obtain ⟨m, ts⟩ := s
  rw [step]
  cases ht : ts[i]? with
  | none => exact ⟨_, rfl, h⟩
  | some t =>
    have hi : i < n := by
      have := (List.getElem?_eq_some_iff.1 ht).1
      rw [← h.len]; exact this
    have hlen : ts.length = n := h.len
    have hw := h.within i t ht
    obtain ⟨mf, hr, hF⟩ := h.runs i t ht
    have get : ∀ (u : Thr α Unit) j t', (ts.set i u)[j]? = some t' → (j = i ∧ t' = u) ∨ (j ≠ i ∧ ts[j]? = some t') := fun u j t' e => by
      rw [List.getElem?_set] at e
      split at e
      · rename_i e'
        rw [if_pos (by omega)] at e
        exact .inl ⟨e'.symm, (Option.some.inj e).symm⟩
      · rename_i e'
        exact .inr ⟨fun e2 => e' e2.symm, e⟩
    cases t with
    | ret b => exact ⟨_, rfl, h⟩
    | read p k =>
      simp only [Thr.run] at hr ⊢
      cases hp : m p with
      | none => rw [hp] at hr; cases hr
      | some v =>
        rw [hp] at hr
        refine ⟨_, rfl, ⟨by simp [hlen], fun j t' e => ?_, fun j t' e => ?_, h.frame⟩⟩
        · rcases get _ j t' e with ⟨rfl, rfl⟩ | ⟨_, e⟩
          · exact hw.2 v
          · exact h.within j t' e
        · rcases get _ j t' e with ⟨rfl, rfl⟩ | ⟨_, e⟩
          · exact ⟨mf, hr, hF⟩
          · exact h.runs j t' e
    | write p v k =>
      simp only [Thr.run] at hr ⊢
      cases hp : m p with
      | none => rw [hp] at hr; cases hr
      | some w =>
        rw [hp] at hr
        refine ⟨_, rfl, ⟨by simp [hlen], fun j t' e => ?_, fun j t' e => ?_, fun q hq => ?_⟩⟩
        · rcases get _ j t' e with ⟨rfl, rfl⟩ | ⟨_, e⟩
          · exact hw.2
          · exact h.within j t' e
        · rcases get _ j t' e with ⟨rfl, rfl⟩ | ⟨hji, e⟩
          · exact ⟨mf, hr, hF⟩
          · have hj : j < n := by rw [← hlen]; exact (List.getElem?_eq_some_iff.1 e).1
            obtain ⟨m1, e1, e2⟩ := h.runs j t' e
            have hs := hsep i j hi hj (fun e => hji e.symm) p hw.1
            obtain ⟨m2, e3, e4, _⟩ := run_congr t' (h.within j t' e) m (fun q => if q = p then some v else m q) (fun q hq => by
              rw [if_neg]
              rintro rfl
              exact hq.elim hs.2 hs.1) m1 () e1
            exact ⟨m2, e3, fun q hq => by rw [← e4 q (.inr hq), e2 q hq]⟩
        · simp only
          rw [if_neg fun e => hq i hi (by rw [e]; exact hw.1)]
          exact h.frame q hq
    | fail => cases hr

theorem inv_exec {R W : Nat → Nat → Prop} {m0 : Buf α} {F : Nat → Buf α} {n : Nat} (hsep : ∀ i j, i < n → j < n → i ≠ j → ∀ p, W i p → ¬ W j p ∧ ¬ R j p)
    {s : Buf α × List (Thr α Unit)} (h : Inv R W m0 F n s) (sched : List Nat) : ∃ s', exec sched s = .ok s' ∧ Inv R W m0 F n s' := by
  induction sched generalizing s with
  | nil => exact ⟨s, rfl, h⟩
  | cons i l ih =>
    obtain ⟨s1, e1, h1⟩ := inv_step hsep h i
    obtain ⟨s2, e2, h2⟩ := ih h1
    exact ⟨s2, by rw [exec, Res.forM_cons, e1, Res.ok_bind]; exact e2, h2⟩

theorem exec_append (l1 l2 : List Nat) (s : Buf α × List (Thr α Unit)) : exec (l1 ++ l2) s = exec l1 s >>= exec l2 := Res.forM_append ..

/-- From any state the threads can finish, unless an access fails on the way. -/
theorem finish_one (i : Nat) (t : Thr α Unit) (m : Buf α) (ts : List (Thr α Unit)) (ht : ts[i]? = some t) :
    ∃ sched, exec sched (m, ts) = .ub ∨ ∃ m', exec sched (m, ts) = .ok (m', ts.set i (.ret ())) := by
  have hi := (List.getElem?_eq_some_iff.1 ht).1
  induction t generalizing m ts with
  | ret b => 
    refine ⟨[], .inr ⟨m, ?_⟩⟩
    have e : ts.set i (.ret ()) = ts := by
      conv_rhs => rw [← List.set_getElem_self hi]
      rw [(List.getElem?_eq_some_iff.1 ht).2]
    rw [e]
    rfl
  | read p k ih =>
    cases hp : m p with
    | none => exact ⟨[i], .inl (by simp [exec, step, ht, hp])⟩
    | some v =>
      obtain ⟨sched, h⟩ := ih v m (ts.set i (k v)) (by rw [List.getElem?_set_self hi]) (by simpa using hi)
      have e : exec (i :: sched) (m, ts) = exec sched (m, ts.set i (k v)) := by simp [exec, step, ht, hp]
      refine ⟨i :: sched, ?_⟩
      rw [e]
      simpa using h
  | write p v k ih =>
    cases hp : m p with
    | none => exact ⟨[i], .inl (by simp [exec, step, ht, hp])⟩
    | some w =>
      obtain ⟨sched, h⟩ := ih (fun q => if q = p then some v else m q) (ts.set i k) (by rw [List.getElem?_set_self hi]) (by simpa using hi)
      have e : exec (i :: sched) (m, ts) = exec sched (fun q => if q = p then some v else m q, ts.set i k) := by simp [exec, step, ht, hp]
      refine ⟨i :: sched, ?_⟩
      rw [e]
      simpa using h
  | fail => exact ⟨[i], .inl (by simp [exec, step, ht])⟩

theorem finish (m : Buf α) (ts : List (Thr α Unit)) : ∃ sched, exec sched (m, ts) = .ub ∨ ∃ m' ts', exec sched (m, ts) = .ok (m', ts') ∧ ∀ t ∈ ts', t.isRet = true := by
  have key : ∀ n, n ≤ ts.length → ∃ sched, exec sched (m, ts) = .ub ∨
      ∃ m' ts', exec sched (m, ts) = .ok (m', ts') ∧ ts'.length = ts.length ∧ ∀ i, i < n → ts'[i]? = some (.ret ()) := by
    intro n
    induction n with
    | zero => exact fun _ => ⟨[], .inr ⟨m, ts, rfl, rfl, fun i hi => absurd hi (Nat.not_lt_zero i)⟩⟩
    | succ n ih =>
      intro hn
      obtain ⟨sched, h | ⟨m', ts', e, hl, h⟩⟩ := ih (by omega)
      · exact ⟨sched, .inl h⟩
      · have hlt : n < ts'.length := by omega
        obtain ⟨s2, h2⟩ := finish_one n ts'[n] m' ts' (List.getElem?_eq_getElem hlt)
        refine ⟨sched ++ s2, ?_⟩
        rw [exec_append, e, Res.ok_bind]
        rcases h2 with h2 | ⟨m2, h2⟩
        · exact .inl h2
        · refine .inr ⟨m2, _, h2, by simpa using hl, fun i hi => ?_⟩
          by_cases e : i = n
          · rw [e, List.getElem?_set_self hlt]
          · rw [List.getElem?_set_ne (fun e' => e e'.symm)]
            exact h i (by omega)
  obtain ⟨sched, h | ⟨m', ts', e, hl, h⟩⟩ := key ts.length (Nat.le_refl _)
  · exact ⟨sched, .inl h⟩
  · refine ⟨sched, .inr ⟨m', ts', e, fun t ht => ?_⟩⟩
    obtain ⟨i, hi, rfl⟩ := List.getElem_of_mem ht
    have := h i (by omega)
    rw [List.getElem?_eq_getElem hi] at this
    rw [Option.some.inj this]
    rfl

/-! ### Launches -/

theorem D3.mem_all {d i : D3} : i ∈ d.all ↔ i.x < d.x ∧ i.y < d.y ∧ i.z < d.z := by
  simp only [D3.all, List.mem_flatMap, List.mem_range, List.mem_map]
  constructor
  · rintro ⟨x, hx, y, hy, z, hz, rfl⟩; exact ⟨hx, hy, hz⟩
  · rintro ⟨hx, hy, hz⟩; exact ⟨i.x, hx, i.y, hy, i.z, hz, rfl⟩

theorem D3.nodup_all (d : D3) : d.all.Nodup := by
  rw [D3.all, List.nodup_flatMap]
  refine ⟨fun x _ => ?_, ?_⟩
  · rw [List.nodup_flatMap]
    refine ⟨fun y _ => List.Nodup.map (fun a b e => by cases e; rfl) List.nodup_range, ?_⟩
    refine List.nodup_range.imp fun {a b} hab => ?_
    simp only [Function.onFun, List.disjoint_left, List.mem_map]
    rintro q ⟨z, _, rfl⟩ ⟨z', _, e⟩
    cases e; exact hab rfl
  · refine List.nodup_range.imp fun {a b} hab => ?_
    simp only [Function.onFun, List.disjoint_left, List.mem_flatMap, List.mem_map]
    rintro q ⟨y, _, z, _, rfl⟩ ⟨y', _, z', _, e⟩
    cases e; exact hab rfl

theorem Launch.mem_ids {l : Launch α} {q : D3 × D3} : q ∈ l.ids ↔ q.1 ∈ l.blocks.all ∧ q.2 ∈ l.threads.all := by
  simp only [Launch.ids, List.mem_flatMap, List.mem_map]
  constructor
  · rintro ⟨b, hb, t, ht, rfl⟩; exact ⟨hb, ht⟩
  · rintro ⟨hb, ht⟩; exact ⟨q.1, hb, q.2, ht, rfl⟩

theorem Launch.nodup_ids (l : Launch α) : l.ids.Nodup := by
  rw [Launch.ids, List.nodup_flatMap]
  refine ⟨fun b _ => List.Nodup.map (fun a b e => by cases e; rfl) (D3.nodup_all _), ?_⟩
  refine (D3.nodup_all l.blocks).imp fun {a b} hab => ?_
  simp only [Function.onFun, List.disjoint_left, List.mem_map]
  rintro q ⟨t, _, rfl⟩ ⟨t', _, e⟩
  cases e; exact hab rfl

theorem Ends.nil {m : Buf α} {Q : Buf α → Prop} (h : Q m) : Ends [] m Q :=
  ⟨⟨m, .nil m⟩, fun o ho => by cases ho; exact ⟨m, rfl, h⟩⟩

theorem Ends.skip {l : Launch α} {ls : List (Launch α)} {m : Buf α} {Q : Buf α → Prop} (hv : l.valid = false) (h : Ends ls m Q) : Ends (l :: ls) m Q := by
  refine ⟨h.1.imp fun m' h => .skip hv h, fun o ho => ?_⟩
  cases ho with
  | skip _ hr => exact h.2 o hr
  | ran hv' => rw [hv] at hv'; cases hv'
  | bad hv' => rw [hv] at hv'; cases hv'

theorem Ends.seq {l : Launch α} {ls : List (Launch α)} {m : Buf α} {P Q : Buf α → Prop} (h1 : Ends [l] m P) (h2 : ∀ m', P m' → Ends ls m' Q) : Ends (l :: ls) m Q := by
  have key : ∀ m', Out [l] m (.ok m') → ∀ o, Out ls m' o → Out (l :: ls) m o := fun m' h o ho => by
    generalize he : (Res.ok m' : Res (Buf α)) = e at h
    cases h with
    | skip hv hr => cases hr; cases he; exact .skip hv ho
    | ran hv sched m2 ts he' hd hr => cases hr; cases he; exact .ran hv sched m' ts he' hd ho
    | bad hv sched hb => cases he
  obtain ⟨m', hm'⟩ := h1.1
  obtain ⟨m1, e, hP⟩ := h1.2 _ hm'
  cases e
  obtain ⟨m2, hm2⟩ := (h2 m' hP).1
  refine ⟨⟨m2, key m' hm' _ hm2⟩, fun o ho => ?_⟩
  cases ho with
  | skip hv hr =>
    obtain ⟨m3, e, h3⟩ := h1.2 _ (.skip hv (.nil m))
    cases e
    exact (h2 m h3).2 o hr
  | ran hv sched m3 ts he hd hr =>
    obtain ⟨m4, e, h4⟩ := h1.2 _ (.ran hv sched m3 ts he hd (.nil m3))
    cases e
    exact (h2 m3 h4).2 o hr
  | bad hv sched he =>
    obtain ⟨m4, e, h4⟩ := h1.2 _ (.bad hv sched he)
    cases e

theorem Ends.imp {ls : List (Launch α)} {m : Buf α} {P Q : Buf α → Prop} (h : Ends ls m P) (hpq : ∀ m', P m' → Q m') : Ends ls m Q :=
  ⟨h.1, fun o ho => by obtain ⟨m', e, hp⟩ := h.2 o ho; exact ⟨m', e, hpq m' hp⟩⟩

/-- Threads with cells of their own. -/
theorem Ends.own {l : Launch α} {m : Buf α} (hv : l.valid = true) (R W : D3 × D3 → Nat → Prop) (F : D3 × D3 → Buf α)
    (hin : ∀ q ∈ l.ids, Within (R q) (W q) (l.kern q.1 q.2)) (hsep : ∀ q ∈ l.ids, ∀ q' ∈ l.ids, q ≠ q' → ∀ p, W q p → ¬ W q' p ∧ ¬ R q' p)
    (hrun : ∀ q ∈ l.ids, (l.kern q.1 q.2).run m = .ok (F q, ())) :
    Ends [l] m fun m' => (∀ q ∈ l.ids, ∀ p, W q p → m' p = F q p) ∧ ∀ p, (∀ q ∈ l.ids, ¬ W q p) → m' p = m p := by
  have hget : ∀ i (hi : i < l.ids.length), l.ids[i] ∈ l.ids := fun i hi => List.getElem_mem hi
  let G : Nat → D3 × D3 := fun i => l.ids.getD i (⟨0, 0, 0⟩, ⟨0, 0, 0⟩)
  have hG : ∀ i (hi : i < l.ids.length), G i = l.ids[i] := fun i hi => by simp [G, List.getD_eq_getElem?_getD, List.getElem?_eq_getElem hi]
  have hGm : ∀ i, i < l.ids.length → G i ∈ l.ids := fun i hi => by rw [hG i hi]; exact hget i hi
  have hstart : ∀ i t, l.start[i]? = some t → i < l.ids.length ∧ t = l.kern (G i).1 (G i).2 := fun i t e => by
    rw [Launch.start, List.getElem?_map] at e
    cases e' : l.ids[i]? with
    | none => rw [e'] at e; cases e
    | some q =>
      rw [e'] at e
      have hi := (List.getElem?_eq_some_iff.1 e').1
      refine ⟨hi, ?_⟩
      rw [hG i hi, (List.getElem?_eq_some_iff.1 e').2]
      exact (Option.some.inj e).symm
  have hs : ∀ i j, i < l.ids.length → j < l.ids.length → i ≠ j → ∀ p, W (G i) p → ¬ W (G j) p ∧ ¬ R (G j) p := fun i j hi hj hij p hp => by
    refine hsep (G i) (hGm i hi) (G j) (hGm j hj) (fun e => hij ?_) p hp
    rw [hG i hi, hG j hj] at e
    exact (List.Nodup.getElem_inj_iff l.nodup_ids).1 e
  have h0 : Inv (fun i => R (G i)) (fun i => W (G i)) m (fun i => F (G i)) l.ids.length (m, l.start) := {
    len := by simp [Launch.start]
    within := fun i t e => by
      obtain ⟨hi, rfl⟩ := hstart i t e
      exact hin _ (hGm i hi)
    runs := fun i t e => by
      obtain ⟨hi, rfl⟩ := hstart i t e
      exact ⟨F (G i), hrun _ (hGm i hi), fun _ _ => rfl⟩
    frame := fun _ _ => rfl }
  have fin : ∀ sched m' ts, exec sched (m, l.start) = .ok (m', ts) → (∀ t ∈ ts, t.isRet = true) →
      (∀ q ∈ l.ids, ∀ p, W q p → m' p = F q p) ∧ ∀ p, (∀ q ∈ l.ids, ¬ W q p) → m' p = m p := fun sched m' ts he hd => by
    obtain ⟨s', e, hI⟩ := inv_exec hs h0 sched
    rw [he] at e
    cases e
    refine ⟨fun q hq p hp => ?_, fun p hp => hI.frame p fun i hi => hp _ (hGm i hi)⟩
    obtain ⟨i, hi, rfl⟩ := List.getElem_of_mem hq
    have hlt : i < ts.length := by rw [show ts.length = _ from hI.len]; exact hi
    obtain ⟨mf, e1, e2⟩ := hI.runs i ts[i] (List.getElem?_eq_getElem hlt)
    have hret := hd ts[i] (List.getElem_mem hlt)
    cases ht : ts[i] with
    | ret b =>
      rw [ht] at e1
      cases e1
      rw [← hG i hi] at hp ⊢
      exact e2 p hp
    | read => rw [ht] at hret; cases hret
    | write => rw [ht] at hret; cases hret
    | fail => rw [ht] at hret; cases hret
  refine ⟨?_, fun o ho => ?_⟩
  · obtain ⟨sched, h | ⟨m', ts', e, hd⟩⟩ := finish m l.start
    · obtain ⟨s', e, _⟩ := inv_exec hs h0 sched
      rw [h] at e; cases e
    · exact ⟨m', .ran hv sched m' ts' e hd (.nil m')⟩
  · cases ho with
    | skip hv' => rw [hv] at hv'; cases hv'
    | ran _ sched m' ts he hd hr => cases hr; exact ⟨m', rfl, fin sched m' ts he hd⟩
    | bad _ sched he =>
      obtain ⟨s', e, _⟩ := inv_exec hs h0 sched
      rw [he] at e; cases e

/-- Any launch changes cells only that a thread may write. -/
theorem exec_frame (W : Nat → Prop) (sched : List Nat) (s : Buf α × List (Thr α Unit)) (hw : ∀ t ∈ s.2, Within (fun _ => True) W t) (m' : Buf α) (ts : List (Thr α Unit))
    (he : exec sched s = .ok (m', ts)) : ∀ p, ¬ W p → m' p = s.1 p := by
  induction sched generalizing s with
  | nil => cases he; exact fun _ _ => rfl
  | cons i l ih =>
    rw [exec, Res.forM_cons] at he
    have hset : ∀ u, Within (fun _ => True) W u → ∀ t ∈ s.2.set i u, Within (fun _ => True) W t := fun u hu t ht => by
      rcases List.mem_or_eq_of_mem_set ht with h | h
      · exact hw t h
      · rw [h]; exact hu
    obtain ⟨s1, e1, e2⟩ := Res.bind_eq_ok.1 he
    rw [step] at e1
    cases ht : s.2[i]? with
    | none => rw [ht] at e1; cases e1; exact ih s hw e2
    | some t =>
      rw [ht] at e1
      have hwt := hw t (List.mem_of_getElem? ht)
      cases t with
      | ret b => cases e1; exact ih s hw e2
      | read p k =>
        simp only at e1
        cases hp : s.1 p with
        | none => rw [hp] at e1; cases e1
        | some v =>
          rw [hp] at e1
          cases e1
          exact ih (s.1, s.2.set i (k v)) (hset _ (hwt.2 v)) e2
      | write p v k =>
        simp only at e1
        cases hp : s.1 p with
        | none => rw [hp] at e1; cases e1
        | some w =>
          rw [hp] at e1
          cases e1
          intro q hq
          rw [ih _ (hset _ hwt.2) e2 q hq]
          exact if_neg fun e => hq (by rw [e]; exact hwt.1)
      | fail => cases e1

theorem out_frame (W : Nat → Prop) (ls : List (Launch α)) (hw : ∀ l ∈ ls, ∀ q ∈ l.ids, Within (fun _ => True) W (l.kern q.1 q.2)) (m m' : Buf α) (h : Out ls m (.ok m')) :
    ∀ p, ¬ W p → m' p = m p := by
  induction ls generalizing m with
  | nil => cases h; exact fun _ _ => rfl
  | cons l ls ih =>
    cases h with
    | skip _ hr => exact ih (fun l hl => hw l (List.mem_cons_of_mem _ hl)) m hr
    | ran _ sched m1 ts he hd hr =>
      intro p hp
      rw [ih (fun l hl => hw l (List.mem_cons_of_mem _ hl)) m1 hr p hp]
      refine exec_frame W sched (m, l.start) (fun t ht => ?_) m1 ts he p hp
      obtain ⟨q, hq, rfl⟩ := List.mem_map.1 ht
      exact hw l (List.mem_cons_self ..) q hq

end Gpu

end Cnine
