import Verif.Spec.RtensorAMem
import Verif.Lemmas.RtensorA

/-!
# Lemmas on the arrays of old tensors
-/

namespace Cnine

variable {α : Type}

namespace RAM

/-! ### Blocks -/

theorem live_lt {h : List (Option (List α))} {b : Nat} (hb : liveAt h b) : b < h.length := by
  obtain ⟨l, hl⟩ := hb
  exact (List.getElem?_eq_some_iff.1 hl).1

theorem alloc_live (junk : Nat → Nat → α) (h : List (Option (List α))) (n b : Nat) : liveAt (alloc junk h n).1 b ↔ liveAt h b ∨ b = h.length := by
  rw [liveAt, liveAt, alloc]
  rcases Nat.lt_trichotomy b h.length with hb | hb | hb
  · rw [List.getElem?_append_left hb]; constructor
    · exact fun h => .inl h
    · rintro (h | h); exact h; omega
  · subst hb
    simp
  · rw [List.getElem?_eq_none (by simp; omega), List.getElem?_eq_none (by omega)]; simp; omega

theorem set_live {h : List (Option (List α))} {c : Nat} {l : List α} (hc : liveAt h c) (b : Nat) : liveAt (h.set c (some l)) b ↔ liveAt h b := by
  rw [liveAt, liveAt]
  by_cases e : c = b
  · subst e
    rw [List.getElem?_set_self (live_lt hc)]
    exact ⟨fun _ => hc, fun _ => ⟨l, rfl⟩⟩
  · rw [List.getElem?_set_ne e]

theorem free_live {h h' : List (Option (List α))} {p : Option (Nat × Nat)} (e : free h p = .ok h') :
    h'.length = h.length ∧ ∀ b, liveAt h' b ↔ liveAt h b ∧ ∀ q, p = some q → q.1 ≠ b := by
  match p with
  | none => cases e; exact ⟨rfl, fun b => by simp⟩
  | some (c, o) =>
    rw [free] at e
    split at e
    · next l hl =>
      split at e
      · cases e
        refine ⟨by simp, fun b => ?_⟩
        rw [liveAt, liveAt]
        by_cases hb : c = b
        · subst hb
          rw [List.getElem?_set_self (List.getElem?_eq_some_iff.1 hl).1]; simp
        · rw [List.getElem?_set_ne hb]; simp [hb]
      · cases e
    · cases e

theorem writeN_live {h h' : List (Option (List α))} {p : Option (Nat × Nat)} {i : Nat} {v : List α} (e : writeN h p i v = .ok h') :
    h'.length = h.length ∧ ∀ b, liveAt h' b ↔ liveAt h b := by
  unfold writeN at e
  split at e
  · cases e; exact ⟨rfl, fun _ => .rfl⟩
  · split at e
    · cases e
    · split at e
      · next l hl =>
        split at e
        · cases e
          exact ⟨by simp, set_live ⟨_, hl⟩⟩
        · cases e
      · cases e

theorem copyN_live {h h' : List (Option (List α))} {p q : Option (Nat × Nat)} {i n : Nat} (e : copyN h p n q i = .ok h') :
    h'.length = h.length ∧ ∀ b, liveAt h' b ↔ liveAt h b := by
  rw [copyN] at e
  obtain ⟨_, _, e⟩ := Res.bind_eq_ok.1 e
  obtain ⟨_, _, e⟩ := Res.bind_eq_ok.1 e
  exact writeN_live e

/-! ### Owners -/

theorem Sound.congr {L L' : Nat → Prop} {vars : Nat → Option Obj} (h : Sound L vars) (e : ∀ b, L' b ↔ L b) : Sound L' vars :=
  ⟨fun v p hp => ⟨(h.live v p hp).1, (e _).2 (h.live v p hp).2⟩, h.one, fun b hb => h.all b ((e b).1 hb)⟩

/-- One variable changes. -/
theorem Sound.put {L : Nat → Prop} {vars : Nat → Option Obj} (h : Sound L vars) (v : Nat) (o : Option Obj)
    (hb : ∀ p, own o = some p → p.2 = 0 ∧ (¬ L p.1 ∨ own (vars v) = some p)) :
    Sound (fun b => (L b ∧ ∀ p, own (vars v) = some p → p.1 ≠ b) ∨ ∃ p, own o = some p ∧ p.1 = b) (fun w => if w = v then o else vars w) := by
  refine ⟨fun w p hp => ?_, fun w w' p q hp hq e => ?_, fun b hl => ?_⟩
  · split at hp
    · exact ⟨(hb p hp).1, .inr ⟨p, hp, rfl⟩⟩
    · next hne => exact ⟨(h.live w p hp).1, .inl ⟨(h.live w p hp).2, fun q hq e => hne (h.one w v p q hp hq e.symm)⟩⟩
  · have key : ∀ w, w ≠ v → ∀ q, own (vars w) = some q → ∀ p, own o = some p → p.1 ≠ q.1 := fun w hw q hq p hp e => by
      rcases (hb p hp).2 with n | n
      · exact n (e ▸ (h.live w q hq).2)
      · exact hw (h.one w v q p hq n e.symm)
    split at hp <;> split at hq
    · next a b => rw [a, b]
    · next a b => exact absurd e (key w' b q hq p hp)
    · next a b => exact absurd e.symm (key w a p hp q hq)
    · exact h.one w w' p q hp hq e
  · rcases hl with ⟨h1, h2⟩ | ⟨p, h1, h2⟩
    · obtain ⟨w, p, h3, h4⟩ := h.all b h1
      refine ⟨w, p, ?_, h4⟩
      rw [if_neg]
      · exact h3
      · rintro rfl
        exact h2 p h3 h4
    · exact ⟨v, p, by simpa using h1, h2⟩

/-- What growing does to the blocks. -/
structure Moves (h : List (Option (List α))) (o : Obj) (h' : List (Option (List α))) (o' : Obj) : Prop where
  len : h.length ≤ h'.length
  flag : o'.isView = o.isView
  live : ∀ b, liveAt h' b ↔ (liveAt h b ∧ ∀ p, own (some o) = some p → p.1 ≠ b) ∨ ∃ p, own (some o') = some p ∧ p.1 = b
  ptr : ∀ p, own (some o') = some p → p.2 = 0 ∧ (h.length ≤ p.1 ∨ own (some o) = some p)

theorem Moves.rfl' {h : List (Option (List α))} {o : Obj} (hl : ∀ p, own (some o) = some p → p.2 = 0 ∧ liveAt h p.1) : Moves h o h o :=
  ⟨Nat.le_refl _, rfl, fun b => ⟨fun hb => by
    by_cases c : ∃ p, own (some o) = some p ∧ p.1 = b
    · exact .inr c
    · exact .inl ⟨hb, fun p hp e => c ⟨p, hp, e⟩⟩, fun hb => by
    rcases hb with h | ⟨p, h, rfl⟩
    · exact h.1
    · exact (hl p h).2⟩, fun p hp => ⟨(hl p hp).1, .inr hp⟩⟩

theorem Moves.trans {h h1 h2 : List (Option (List α))} {o o1 o2 : Obj} (a : Moves h o h1 o1) (b : Moves h1 o1 h2 o2) : Moves h o h2 o2 := by
  refine ⟨Nat.le_trans a.len b.len, b.flag.trans a.flag, fun c => ?_, fun p hp => ⟨(b.ptr p hp).1, ?_⟩⟩
  · rw [b.live, a.live]
    constructor
    · rintro (⟨h3 | h3, h4⟩ | h3)
      · exact .inl h3
      · obtain ⟨p, h5, h6⟩ := h3
        exact absurd h6 (h4 p h5)
      · exact .inr h3
    · rintro (⟨h3, h4⟩ | h3)
      · refine .inl ⟨.inl ⟨h3, h4⟩, fun p hp e => ?_⟩
        rcases (a.ptr p hp).2 with n | n
        · have := live_lt h3
          omega
        · exact h4 p n e
      · exact .inr h3
  · rcases (b.ptr p hp).2 with n | n
    · exact .inl (Nat.le_trans a.len n)
    · exact (a.ptr p n).2

theorem reserve0_moves {junk : Nat → Nat → α} {h h' : List (Option (List α))} {o o' : Obj} {n : Nat} (hl : ∀ p, own (some o) = some p → p.2 = 0 ∧ liveAt h p.1)
    (e : reserve0 junk h o n = .ok (h', o')) : Moves h o h' o' ∧ o'.dims = o.dims ∧ o'.strides = o.strides ∧ o'.asize = o.asize := by
  rw [reserve0] at e
  obtain ⟨c, _, e⟩ := Res.bind_eq_ok.1 e
  split at e
  · cases e
    exact ⟨.rfl' hl, rfl, rfl, rfl⟩
  · obtain ⟨_, h0, e⟩ := Res.bind_eq_ok.1 e
    obtain ⟨t, _, e⟩ := Res.bind_eq_ok.1 e
    simp only at e
    obtain ⟨h1, e1, e⟩ := Res.bind_eq_ok.1 e
    obtain ⟨h2, e2, e⟩ := Res.bind_eq_ok.1 e
    cases e
    have hv : o.isView = false := by
      cases hv : o.isView with
      | false => rfl
      | true => rw [hv] at h0; cases h0
    obtain ⟨l1, l2⟩ := copyN_live e1
    obtain ⟨f1, f2⟩ := free_live e2
    have hlen : (alloc junk h (max (n * t) 1)).1.length = h.length + 1 := by simp [alloc]
    refine ⟨⟨by omega, rfl, fun b => ?_, fun p hp => ?_⟩, rfl, rfl, rfl⟩
    · rw [f2, l2, alloc_live]
      simp only [own, hv, if_false, Bool.false_eq_true]
      constructor
      · rintro ⟨h3 | h3, h4⟩
        · exact .inl ⟨h3, h4⟩
        · exact .inr ⟨_, rfl, h3.symm⟩
      · rintro (⟨h3, h4⟩ | ⟨p, h3, h4⟩)
        · exact ⟨.inl h3, h4⟩
        · cases h3
          refine ⟨.inr h4.symm, fun q hq e => ?_⟩
          have := live_lt (hl q (by simp [own, hv, hq])).2
          rw [e, ← h4] at this
          exact Nat.lt_irrefl _ this
    · simp only [own, hv, if_false, Bool.false_eq_true] at hp
      cases hp
      exact ⟨rfl, .inl (Nat.le_refl _)⟩

/-- The step of a variable whose blocks move. -/
theorem Sound.moves {h h' : List (Option (List α))} {vars : Nat → Option Obj} {v : Nat} {o o' : Obj} (hs : Sound (liveAt h) vars) (hv : vars v = some o)
    (hm : Moves h o h' o') : Sound (liveAt h') (fun w => if w = v then some o' else vars w) := by
  refine (hs.put v (some o') fun p hp => ⟨(hm.ptr p hp).1, ?_⟩).congr fun b => ?_
  · rcases (hm.ptr p hp).2 with n | n
    · exact .inl fun hl => Nat.not_lt.2 n (live_lt hl)
    · exact .inr (by rw [hv, n])
  · rw [hm.live, hv]

theorem Moves.same {h h' h'' : List (Option (List α))} {o o' o'' : Obj} (hm : Moves h o h' o') (h1 : h''.length = h'.length) (h2 : ∀ b, liveAt h'' b ↔ liveAt h' b)
    (h3 : o''.ptr = o'.ptr) (h4 : o''.isView = o'.isView) : Moves h o h'' o'' := by
  have e : own (some o'') = own (some o') := by simp only [own, h3, h4]
  exact ⟨h1 ▸ hm.len, h4.trans hm.flag, fun b => by rw [h2, hm.live, e], fun p hp => hm.ptr p (e ▸ hp)⟩

/-- A block changes hands. -/
theorem Sound.shift {L : Nat → Prop} {vars : Nat → Option Obj} (hs : Sound L vars) {v w : Nat} (hvw : v ≠ w) (hv : own (vars v) = none) {x y : Option Obj}
    (hx : own x = own (vars w)) (hy : own y = none) : Sound L (fun u => if u = w then y else if u = v then x else vars u) := by
  have h1 := hs.put w y fun p hp => by rw [hy] at hp; cases hp
  have h2 := h1.put v x fun p hp => ⟨(hs.live w p (hx ▸ hp)).1, .inl ?_⟩
  · have e : (fun u => if u = w then y else if u = v then x else vars u) = fun u => if u = v then x else if u = w then y else vars u := by
      funext u
      by_cases a : u = w
      · rw [if_pos a, if_neg (a ▸ hvw.symm), if_pos a]
      · rw [if_neg a, if_neg a]
    rw [e]
    refine h2.congr fun b => ?_
    simp only [if_neg hvw, hv, hy, hx]
    constructor
    · intro hb
      by_cases c : ∃ p, own (vars w) = some p ∧ p.1 = b
      · exact .inr c
      · exact .inl ⟨.inl ⟨hb, fun p hp e => c ⟨p, hp, e⟩⟩, by simp⟩
    · rintro (⟨h | ⟨p, h, _⟩, _⟩ | ⟨p, h, rfl⟩)
      · exact h.1
      · cases h
      · exact (hs.live w p h).2
  · rintro (⟨_, h⟩ | ⟨q, h, _⟩)
    · exact h p (hx ▸ hp) rfl
    · rw [hy] at h; cases h

/-- A block is released. -/
theorem Sound.drop {h h' : List (Option (List α))} {vars : Nat → Option Obj} (hs : Sound (liveAt h) vars) {v : Nat} {o : Obj} (hv : vars v = some o)
    (e : (if o.isView then .ok h else free h o.ptr) = .ok h') {y : Option Obj} (hy : own y = none) : Sound (liveAt h') (fun u => if u = v then y else vars u) := by
  refine (hs.put v y fun p hp => by rw [hy] at hp; cases hp).congr fun b => ?_
  rw [hy, hv]
  cases ho : o.isView with
  | true => rw [ho] at e; cases e; simp [own, ho]
  | false =>
    rw [ho] at e
    rw [(free_live e).2]
    simp [own, ho]

theorem look_ok {s : State α} {v : Nat} {o : Obj} : look s v = .ok o ↔ s.vars v = some o := by
  rw [look]
  split
  · next h => rw [h]; simp
  · next h => rw [h]; simp

theorem unused_ok {s : State α} {v : Nat} {u : Unit} (h : unused s v = .ok u) : s.vars v = none := by
  cases e : s.vars v with
  | none => rfl
  | some o => rw [unused, e] at h; cases h

theorem step_sound {junk : Nat → Nat → α} {s s' : State α} (hs : Sound (liveAt s.heap) s.vars) {c : Cmd α} (e : step junk s c = .ok s') : Sound (liveAt s'.heap) s'.vars := by
  have fresh : ∀ {v : Nat} {o : Obj} {h' : List (Option (List α))}, s.vars v = none → o.ptr = some (s.heap.length, 0) → o.isView = false →
      (∀ b, liveAt h' b ↔ liveAt s.heap b ∨ b = s.heap.length) → Sound (liveAt h') (fun w => if w = v then some o else s.vars w) := by
    intro v o h' hv hp ho hl
    refine (hs.put v (some o) fun p h => ?_).congr fun b => ?_
    · simp only [own, ho, hp, if_false, Bool.false_eq_true] at h
      cases h
      exact ⟨rfl, .inl fun hl => Nat.lt_irrefl _ (live_lt hl)⟩
    · rw [hl, hv]
      simp only [own, ho, hp, if_false, Bool.false_eq_true]
      constructor
      · rintro (h | h)
        · exact .inl ⟨h, by simp⟩
        · exact .inr ⟨_, rfl, h.symm⟩
      · rintro (h | ⟨p, h, h'⟩)
        · exact .inl h.1
        · cases h; exact .inr h'.symm
  have keep : ∀ {v : Nat} {o : Option Obj} {h' : List (Option (List α))}, own o = own (s.vars v) →
      (∀ b, liveAt h' b ↔ liveAt s.heap b) → Sound (liveAt h') (fun w => if w = v then o else s.vars w) := by
    intro v o h' ho hl
    refine (hs.put v o fun p h => ⟨(hs.live v p (ho ▸ h)).1, .inr (ho ▸ h)⟩).congr fun b => ?_
    rw [hl, ho]
    constructor
    · intro hb
      by_cases c : ∃ p, own (s.vars v) = some p ∧ p.1 = b
      · exact .inr c
      · exact .inl ⟨hb, fun p hp e => c ⟨p, hp, e⟩⟩
    · rintro (h | ⟨p, h, rfl⟩)
      · exact h.1
      · exact (hs.live v p h).2
  cases c with
  | new v dims f =>
    simp only [step, new] at e
    obtain ⟨_, e0, e⟩ := Res.bind_eq_ok.1 e
    obtain ⟨R, _, e⟩ := Res.bind_eq_ok.1 e
    obtain ⟨h', e2, e⟩ := Res.bind_eq_ok.1 e
    cases e
    exact fresh (h' := h') (unused_ok e0) rfl rfl fun b => by rw [(writeN_live e2).2, alloc_live]
  | copy v w =>
    simp only [step, copy] at e
    obtain ⟨_, e0, e⟩ := Res.bind_eq_ok.1 e
    obtain ⟨x, _, e⟩ := Res.bind_eq_ok.1 e
    obtain ⟨h', e2, e⟩ := Res.bind_eq_ok.1 e
    cases e
    exact fresh (h' := h') (unused_ok e0) rfl rfl fun b => by rw [(copyN_live e2).2, alloc_live]
  | view v w =>
    simp only [step, view] at e
    obtain ⟨_, e0, e⟩ := Res.bind_eq_ok.1 e
    obtain ⟨x, _, e⟩ := Res.bind_eq_ok.1 e
    cases e
    exact keep (by rw [unused_ok e0]; rfl) fun _ => .rfl
  | slice0 v w i =>
    simp only [step, slice0] at e
    obtain ⟨_, e0, e⟩ := Res.bind_eq_ok.1 e
    obtain ⟨x, _, e⟩ := Res.bind_eq_ok.1 e
    obtain ⟨_, _, e⟩ := Res.bind_eq_ok.1 e
    obtain ⟨_, _, e⟩ := Res.bind_eq_ok.1 e
    obtain ⟨_, _, e⟩ := Res.bind_eq_ok.1 e
    obtain ⟨_, _, e⟩ := Res.bind_eq_ok.1 e
    cases e
    exact keep (by rw [unused_ok e0]; rfl) fun _ => .rfl
  | move v w =>
    simp only [step, move] at e
    obtain ⟨_, e0, e⟩ := Res.bind_eq_ok.1 e
    obtain ⟨x, e1, e⟩ := Res.bind_eq_ok.1 e
    cases e
    have hv := unused_ok e0
    have hw := look_ok.1 e1
    refine hs.shift (x := some x) (y := some { x with ptr := none }) (fun h => ?_) (by rw [hv]; rfl) (by rw [hw]) (by simp [own])
    rw [h, hw] at hv; cases hv
  | assign v w =>
    simp only [step, assign] at e
    obtain ⟨r, e0, e⟩ := Res.bind_eq_ok.1 e
    obtain ⟨x, e1, e⟩ := Res.bind_eq_ok.1 e
    obtain ⟨r', e2, e⟩ := Res.bind_eq_ok.1 e
    obtain ⟨x', e3, e⟩ := Res.bind_eq_ok.1 e
    have hr := look_ok.1 e0
    have hr' := look_ok.1 e2
    simp only [put, if_true, Option.some.injEq] at hr'
    subst hr'
    simp only at e
    split at e
    · next hv =>
      obtain ⟨_, _, e⟩ := Res.bind_eq_ok.1 e
      obtain ⟨h', e4, e⟩ := Res.bind_eq_ok.1 e
      cases e
      exact keep (by rw [hr]; simp [own, hv]) (copyN_live e4).2
    · next hv =>
      obtain ⟨h1, e4, e⟩ := Res.bind_eq_ok.1 e
      obtain ⟨x3, e5, e⟩ := Res.bind_eq_ok.1 e
      obtain ⟨h', e6, e⟩ := Res.bind_eq_ok.1 e
      cases e
      have hv' : r.isView = false := by simpa using hv
      obtain ⟨f1, f2⟩ := free_live e4
      obtain ⟨l1, l2⟩ := copyN_live e6
      change h1.length = s.heap.length at f1
      change ∀ b, liveAt h1 b ↔ liveAt s.heap b ∧ _ at f2
      change h'.length = (alloc junk h1 (max x.memsize 1)).1.length at l1
      change ∀ b, liveAt h' b ↔ liveAt (alloc junk h1 (max x.memsize 1)).1 b at l2
      have hm : Moves s.heap r h' { r with dims := x.dims, strides := x.strides, memsize := max x.memsize 1, asize := x'.asize, ptr := some (s.heap.length, 0) } := by
        refine ⟨by rw [l1]; simp [alloc]; omega, rfl, fun b => ?_, fun p hp => ?_⟩
        · rw [l2, alloc_live, f2, f1]
          simp only [own, hv', if_false, Bool.false_eq_true]
          constructor
          · rintro (h | h)
            · exact .inl h
            · exact .inr ⟨_, rfl, h.symm⟩
          · rintro (h | ⟨p, h, h'⟩)
            · exact .inl h
            · cases h; exact .inr h'.symm
        · simp only [own, hv', if_false, Bool.false_eq_true] at hp
          cases hp
          exact ⟨rfl, .inl (by simp [f1])⟩
      have := hs.moves hr hm
      refine (congrArg (Sound (liveAt h')) ?_).mp this
      funext u
      by_cases hu : u = v
      · simp [put, hu, alloc, f1]
      · simp [put, hu]
  | moveAssign v w =>
    simp only [step, moveAssign] at e
    obtain ⟨r, e0, e⟩ := Res.bind_eq_ok.1 e
    obtain ⟨x, e1, e⟩ := Res.bind_eq_ok.1 e
    obtain ⟨h', e2, e⟩ := Res.bind_eq_ok.1 e
    obtain ⟨x', e3, e⟩ := Res.bind_eq_ok.1 e
    cases e
    have hr := look_ok.1 e0
    have hx := look_ok.1 e1
    have hx' := look_ok.1 e3
    by_cases hvw : v = w
    · subst hvw
      have := hs.drop hr e2 (y := some { x' with ptr := none }) (by simp [own])
      refine (congrArg (Sound (liveAt h')) ?_).mp this
      funext u
      by_cases hu : u = v <;> simp [put, hu]
    · have h1 := hs.drop hr e2 (y := none) rfl
      simp only [put, if_neg (Ne.symm hvw)] at hx'
      rw [hx] at hx'
      cases hx'
      have h2 := h1.shift (x := some x) (y := some { x with ptr := none }) hvw (by simp [own]) (by rw [if_neg (Ne.symm hvw), hx]) (by simp [own])
      refine (congrArg (Sound (liveAt h')) ?_).mp h2
      funext u
      by_cases hu : u = w
      · simp [put, hu]
      · by_cases hu' : u = v <;> simp [put, hu, hu']
  | reserve v n =>
    simp only [step] at e
    obtain ⟨o, e1, e⟩ := Res.bind_eq_ok.1 e
    obtain ⟨⟨h', o'⟩, e2, e⟩ := Res.bind_eq_ok.1 e
    cases e
    have ho := look_ok.1 e1
    exact hs.moves ho (reserve0_moves (fun p hp => hs.live v p (ho ▸ hp)) e2).1
  | push v w =>
    simp only [step, push] at e
    obtain ⟨o, e0, e⟩ := Res.bind_eq_ok.1 e
    obtain ⟨x, e1, e⟩ := Res.bind_eq_ok.1 e
    obtain ⟨_, _, e⟩ := Res.bind_eq_ok.1 e
    obtain ⟨_, _, e⟩ := Res.bind_eq_ok.1 e
    obtain ⟨_, _, e⟩ := Res.bind_eq_ok.1 e
    obtain ⟨c, _, e⟩ := Res.bind_eq_ok.1 e
    obtain ⟨⟨h1, o1⟩, e2, e⟩ := Res.bind_eq_ok.1 e
    obtain ⟨c', _, e⟩ := Res.bind_eq_ok.1 e
    obtain ⟨d, _, e⟩ := Res.bind_eq_ok.1 e
    obtain ⟨⟨h2, o2⟩, e3, e⟩ := Res.bind_eq_ok.1 e
    obtain ⟨t, _, e⟩ := Res.bind_eq_ok.1 e
    obtain ⟨h3, e4, e⟩ := Res.bind_eq_ok.1 e
    cases e
    have ho := look_ok.1 e0
    have l0 : ∀ p, own (some o) = some p → p.2 = 0 ∧ liveAt s.heap p.1 := fun p hp => hs.live v p (ho ▸ hp)
    have m1 : Moves s.heap o h1 o1 := by
      split at e2
      · exact (reserve0_moves l0 e2).1
      · cases e2; exact .rfl' l0
    have l1 : ∀ p, own (some o1) = some p → p.2 = 0 ∧ liveAt h1 p.1 := fun p hp => ⟨(m1.ptr p hp).1, (m1.live _).2 (.inr ⟨p, hp, rfl⟩)⟩
    have m2 : Moves h1 o1 h2 o2 := by
      split at e3
      · exact (reserve0_moves l1 e3).1
      · cases e3; exact .rfl' l1
    obtain ⟨k1, k2⟩ := copyN_live e4
    exact hs.moves ho ((m1.trans m2).same k1 k2 rfl rfl)
  | reshape v dims =>
    simp only [step, reshape] at e
    obtain ⟨o, e1, e⟩ := Res.bind_eq_ok.1 e
    obtain ⟨_, _, e⟩ := Res.bind_eq_ok.1 e
    obtain ⟨_, _, e⟩ := Res.bind_eq_ok.1 e
    cases e
    exact keep (by rw [look_ok.1 e1]; rfl) fun _ => .rfl
  | setCell v i a =>
    simp only [step, setCell] at e
    obtain ⟨o, e1, e⟩ := Res.bind_eq_ok.1 e
    obtain ⟨h', e2, e⟩ := Res.bind_eq_ok.1 e
    cases e
    exact hs.congr (writeN_live e2).2
  | destroy v =>
    simp only [step, destroy] at e
    obtain ⟨o, e1, e⟩ := Res.bind_eq_ok.1 e
    obtain ⟨h', e2, e⟩ := Res.bind_eq_ok.1 e
    cases e
    exact hs.drop (look_ok.1 e1) e2 rfl

end RAM

end Cnine
