import Verif.Lemmas.RtensorAMem

/-!
# The arrays of old tensors: release, values, growth

C385-C388.
-/

namespace Cnine

variable {α : Type}

open RAM

/-! ### C385: every array is released exactly once -/

theorem start_sound : Sound (liveAt (start : State α).heap) (start : State α).vars :=
  { live := fun _ _ h => by cases h
    one := fun _ _ _ _ h => by cases h
    all := fun b h => by obtain ⟨l, h⟩ := h; simp [start] at h }

/-- After any program each allocated array has exactly one tensor that will release it. -/
theorem C385_sound (junk : Nat → Nat → α) (p : List (Cmd α)) {s s' : State α} (hs : Sound (liveAt s.heap) s.vars) (h : RAM.run junk s p = .ok s') :
    Sound (liveAt s'.heap) s'.vars := by
  induction p generalizing s with
  | nil => cases h; exact hs
  | cons c p ih =>
    rw [RAM.run, Res.forM_cons] at h
    obtain ⟨s1, h1, h2⟩ := Res.bind_eq_ok.1 h
    exact ih (step_sound hs h1) h2

/-- When all tensors are gone no array remains. -/
theorem C385_no_leak (junk : Nat → Nat → α) (p : List (Cmd α)) {s : State α} (h : RAM.run junk start p = .ok s) (hv : ∀ v, s.vars v = none) : ∀ b, ¬ liveAt s.heap b := by
  intro b hb
  obtain ⟨v, q, h1, _⟩ := (C385_sound junk p start_sound h).all b hb
  rw [hv v] at h1; cases h1

/-- The destructor of a tensor always runs: its array has not been released before; and only that array is released. -/
theorem C385_destroy (junk : Nat → Nat → α) (p : List (Cmd α)) {s : State α} (h : RAM.run junk start p = .ok s) {v : Nat} {o : Obj} (hv : s.vars v = some o) :
    ∃ s', destroy s v = .ok s' ∧ (∀ w, s'.vars w = if w = v then none else s.vars w) ∧
      ∀ b, s'.heap[b]? = if o.isView = false ∧ o.ptr = some (b, 0) then some none else s.heap[b]? := by
  have hs := C385_sound junk p start_sound h
  rw [destroy, look_ok.2 hv, Res.ok_bind]
  cases ho : o.isView with
  | true => exact ⟨_, rfl, fun w => rfl, fun b => by simp [put]⟩
  | false =>
    cases hp : o.ptr with
    | none => exact ⟨_, rfl, fun w => rfl, fun b => by simp [put]⟩
    | some q =>
      obtain ⟨b, i⟩ := q
      obtain ⟨h1, l, h2⟩ := hs.live v (b, i) (by rw [hv]; simp [own, ho, hp])
      simp only at h1 h2
      subst h1
      refine ⟨_, by simp only [if_false, Bool.false_eq_true]; rw [free, h2]; rfl, fun w => rfl, fun c => ?_⟩
      simp only [put]
      by_cases hc : b = c
      · subst hc
        rw [List.getElem?_set_self (List.getElem?_eq_some_iff.1 h2).1]; simp
      · rw [List.getElem?_set_ne hc]; simp [hc]

example : ∃ s : State Int, RAM.run (fun _ _ => 9) start [.new 0 [2, 3] fun i => (i : Int), .copy 1 0, .view 2 0, .assign 1 0, .move 3 1, .destroy 2, .destroy 0, .destroy 3, .destroy 1] = .ok s ∧
    s.heap = [none, none, none] := ⟨_, rfl, rfl⟩

/-! ### C386: tensors are values -/

theorem writeN_ok {h : List (Option (List α))} {b i : Nat} {B v : List α} (hb : h[b]? = some (some B)) (hl : i + v.length ≤ B.length) :
    ∃ h', writeN h (some (b, 0)) i v = .ok h' ∧ h'.length = h.length ∧ h'[b]? = some (some (B.take i ++ v ++ B.drop (i + v.length))) ∧ ∀ c, c ≠ b → h'[c]? = h[c]? := by
  unfold writeN
  split
  · next e =>
    rw [List.length_eq_zero_iff.1 e]
    exact ⟨h, rfl, rfl, by simpa using hb, fun _ _ => rfl⟩
  · simp only [hb, Nat.zero_add, if_pos hl]
    exact ⟨_, rfl, by simp, List.getElem?_set_self (List.getElem?_eq_some_iff.1 hb).1, fun c hc => List.getElem?_set_ne (Ne.symm hc)⟩

theorem readN_ok {h : List (Option (List α))} {b n : Nat} {B : List α} (hb : h[b]? = some (some B)) (hl : n ≤ B.length) : readN h (some (b, 0)) 0 n = .ok (B.take n) := by
  unfold readN
  split
  · next e => rw [e]; rfl
  · simp only [hb, Nat.zero_add, if_pos hl]; rfl

theorem copyN_ok {h : List (Option (List α))} {b c n i : Nat} {B C : List α} (hb : h[b]? = some (some B)) (hc : h[c]? = some (some C)) (hne : b ≠ c) (hl : n ≤ B.length)
    (hl' : i + n ≤ C.length) :
    ∃ h', copyN h (some (b, 0)) n (some (c, 0)) i = .ok h' ∧ h'.length = h.length ∧ h'[c]? = some (some (C.take i ++ B.take n ++ C.drop (i + n))) ∧ ∀ d, d ≠ c → h'[d]? = h[d]? := by
  have hlen : (B.take n).length = n := by simp; omega
  obtain ⟨h', e1, e2, e3, e4⟩ := writeN_ok (v := B.take n) (i := i) hc (by omega)
  rw [hlen] at e3
  refine ⟨h', ?_, e2, e3, e4⟩
  rw [copyN, show inside (some (c, 0)) (some (b, 0)) i n = false by simp [inside, Ne.symm hne]]
  rw [show Res.need (!false) = .ok () from rfl, Res.ok_bind, readN_ok hb hl, Res.ok_bind, e1]

theorem alloc_get (junk : Nat → Nat → α) (h : List (Option (List α))) (n : Nat) :
    (alloc junk h n).1[h.length]? = some (some ((List.range n).map (junk h.length))) ∧ ∀ c, c ≠ h.length → (alloc junk h n).1[c]? = h[c]? := by
  refine ⟨by simp [alloc], fun c hc => ?_⟩
  rw [alloc]
  rcases Nat.lt_or_gt_of_ne hc with h1 | h1
  · exact List.getElem?_append_left h1
  · rw [List.getElem?_eq_none (by simp; omega), List.getElem?_eq_none (by omega)]

theorem RAM.Means.keep {h h' : List (Option (List α))} {o : Obj} {x : Val α} (hm : Means h o x) (hk : ∀ b, o.ptr = some (b, 0) → h'[b]? = h[b]?) : Means h' o x := by
  refine ⟨hm.owner, hm.dims, hm.ne, hm.strides, hm.asize, hm.room, ?_⟩
  have := hm.data
  cases hx : x.data with
  | none => rw [hx] at this; exact this
  | some l =>
    rw [hx] at this
    obtain ⟨h1, b, B, h2, h3, h4, h5⟩ := this
    exact ⟨h1, b, B, h2, (hk b h2).trans h3, h4, h5⟩

theorem RAM.Means.own {h : List (Option (List α))} {o : Obj} {x : Val α} (hm : Means h o x) : RAM.own (some o) = o.ptr := by simp [RAM.own, hm.owner]

/-- The object in a variable. -/
theorem RAM.Matches.get {s : State α} {t : Nat → Option (Val α)} (h : Matches s t) {v : Nat} {x : Val α} (hv : t v = some x) : ∃ o, s.vars v = some o ∧ Means s.heap o x := by
  have := h v
  rw [hv] at this
  cases e : s.vars v with
  | none => rw [e] at this; exact this.elim
  | some o => rw [e] at this; exact ⟨o, rfl, this⟩

theorem RAM.Matches.free_var {s : State α} {t : Nat → Option (Val α)} (h : Matches s t) {v : Nat} (hv : t v = none) : s.vars v = none := by
  have := h v
  rw [hv] at this
  cases e : s.vars v with
  | none => rfl
  | some o => rw [e] at this; exact this.elim

/-- One variable changes. -/
theorem RAM.Matches.put {s : State α} {t : Nat → Option (Val α)} (h : Matches s t) {v : Nat} {h' : List (Option (List α))} {o : Option Obj} {x : Option (Val α)}
    (hk : ∀ w, w ≠ v → ∀ o b, s.vars w = some o → o.ptr = some (b, 0) → h'[b]? = s.heap[b]?)
    (hv : match o, x with | none, none => True | some o, some x => Means h' o x | _, _ => False) :
    Matches (RAM.put { s with heap := h' } v o) (vput t v x) := by
  intro w
  simp only [RAM.put, vput]
  by_cases hw : w = v
  · simp only [if_pos hw]; exact hv
  · simp only [if_neg hw]
    have := h w
    cases e1 : s.vars w with
    | none =>
      rw [e1] at this
      cases e2 : t w with
      | none => trivial
      | some x => rw [e2] at this; exact this.elim
    | some o' =>
      rw [e1] at this
      cases e2 : t w with
      | none => rw [e2] at this; exact this.elim
      | some x => rw [e2] at this; exact Means.keep this fun b hb => hk w hw o' b e1 hb

/-- Different tensors have different blocks. -/
theorem RAM.Sound.ne {s : State α} {t : Nat → Option (Val α)} (hs : Sound (liveAt s.heap) s.vars) (hm : Matches s t) {v w : Nat} (hvw : v ≠ w) {o o' : Obj} {b c : Nat}
    (hv : s.vars v = some o) (hw : s.vars w = some o') (h1 : o.ptr = some (b, 0)) (h2 : o'.ptr = some (c, 0)) : b ≠ c := by
  have own' : ∀ {u : Nat} {o : Obj}, s.vars u = some o → RAM.own (s.vars u) = o.ptr := fun {u o} hu => by
    have := hm u
    rw [hu] at this
    cases e : t u with
    | none => rw [e] at this; exact this.elim
    | some x => rw [e] at this; rw [hu]; exact Means.own this
  intro e
  exact hvw (hs.one v w (b, 0) (c, 0) (by rw [own' hv, h1]) (by rw [own' hw, h2]) e)

theorem block_lt {h : List (Option (List α))} {b : Nat} {B : Option (List α)} (hb : h[b]? = some B) : b < h.length := (List.getElem?_eq_some_iff.1 hb).1

/-- A new array with the entries of a tensor. -/
theorem fresh_copy (junk : Nat → Nat → α) {h : List (Option (List α))} {b n k : Nat} {B : List α} (hb : h[b]? = some (some B)) (hn : n ≤ B.length) (hk : n ≤ k) :
    ∃ h' C, copyN (alloc junk h k).1 (some (b, 0)) n (some (h.length, 0)) 0 = .ok h' ∧ h'[h.length]? = some (some C) ∧ C.length = k ∧ C.take n = B.take n ∧
      ∀ c, c ≠ h.length → h'[c]? = h[c]? := by
  obtain ⟨a1, a2⟩ := alloc_get junk h k
  have hlt := block_lt hb
  obtain ⟨h', e1, _, e3, e4⟩ := copyN_ok (i := 0) ((a2 b (by omega)).trans hb) a1 (by omega) hn (by simpa using hk)
  refine ⟨h', _, e1, e3, ?_, ?_, fun c hc => (e4 c hc).trans (a2 c hc)⟩
  · simp; omega
  · rw [List.take_zero, List.nil_append, List.take_append_of_le_length (by simp; omega), List.take_take, Nat.min_self]

theorem stride0 {h : List (Option (List α))} {o : Obj} {x : Val α} (hm : Means h o x) : Res.get o.strides 0 = .ok x.dims.tail.prod := by
  rw [Res.get, hm.strides]
  cases hd : x.dims with
  | nil => exact absurd hd hm.ne
  | cons d D => cases D <;> simp [List.tails]

/-- Growing. -/
theorem reserve_ok (junk : Nat → Nat → α) {h : List (Option (List α))} {o : Obj} {D : List Nat} {l : List α} (hm : Means h o ⟨D, some l⟩) (ht : D.tail.prod ≠ 0) (n : Nat) :
    ∃ h' o', reserve0 junk h o n = .ok (h', o') ∧ Means h' o' ⟨D, some l⟩ ∧ n * D.tail.prod ≤ o'.memsize ∧ o.memsize ≤ o'.memsize ∧
      (∀ b, o'.ptr = some (b, 0) → o.ptr = some (b, 0) ∨ h.length ≤ b) ∧ h.length ≤ h'.length ∧ ∀ c, c < h.length → o.ptr ≠ some (c, 0) → h'[c]? = h[c]? := by
  have hc : capacity0 o = .ok (o.memsize / D.tail.prod) := by
    rw [capacity0, stride0 hm, Res.ok_bind, show Res.need (decide (D.tail.prod ≠ 0)) = .ok () by rw [decide_eq_true ht]; rfl, Res.ok_bind]
  rw [reserve0, hc, Res.ok_bind]
  split
  · next hn => exact ⟨h, o, rfl, hm, (Nat.le_div_iff_mul_le (Nat.pos_of_ne_zero ht)).1 hn, Nat.le_refl _, fun b hb => .inl hb, Nat.le_refl _, fun _ _ _ => rfl⟩
  · next hn =>
    have hlt : o.memsize < n * D.tail.prod := (Nat.div_lt_iff_lt_mul (Nat.pos_of_ne_zero ht)).1 (Nat.lt_of_not_le hn)
    obtain ⟨d1, b, B, d2, d3, d4, d5⟩ := hm.data
    have hr := hm.room
    simp only at d1 d5 hr
    obtain ⟨h1, C, e1, e2, e3, e4, e5⟩ := fresh_copy junk (n := D.prod) (k := max (n * D.tail.prod) 1) d3 (by omega) (by omega)
    have hb := block_lt d3
    have hb1 : h1[b]? = some (some B) := (e5 b (by omega)).trans d3
    refine ⟨h1.set b none, { o with memsize := n * D.tail.prod, ptr := some (h.length, 0) }, ?_, ⟨hm.owner, hm.dims, hm.ne, hm.strides, hm.asize, ?_, d1, h.length, C, rfl, ?_, ?_, ?_⟩,
      Nat.le_refl _, ?_, fun c hc => ?_, ?_, fun c h2 h3 => ?_⟩
    · rw [hm.owner, show Res.assrt (!false) = .ok () from rfl, Res.ok_bind, stride0 hm, Res.ok_bind]
      simp only
      rw [d2, show o.asize = D.prod from hm.asize]
      rw [show (alloc junk h (max (n * D.tail.prod) 1)).2 = (h.length, 0) from rfl, e1, Res.ok_bind, free, hb1]
      rfl
    · simp only; omega
    · rw [List.getElem?_set_ne (by omega)]; exact e2
    · simp only; omega
    · rw [← d5]; exact e4
    · simp only; omega
    · cases hc; exact .inr (Nat.le_refl _)
    · have := block_lt e2
      simp; omega
    · rw [List.getElem?_set_ne (fun e => h3 (by rw [d2, e])), e5 c (by omega)]

/-- The array of a tensor is released. -/
theorem free_ok {h : List (Option (List α))} {o : Obj} {x : Val α} (hm : Means h o x) :
    ∃ h', free h o.ptr = .ok h' ∧ h'.length = h.length ∧ ∀ c, o.ptr ≠ some (c, 0) → h'[c]? = h[c]? := by
  have := hm.data
  cases hx : x.data with
  | none => rw [hx] at this; rw [this]; exact ⟨h, rfl, rfl, fun _ _ => rfl⟩
  | some l =>
    rw [hx] at this
    obtain ⟨_, b, B, h2, h3, _⟩ := this
    rw [h2]
    refine ⟨h.set b none, by rw [free, h3]; rfl, by simp, fun c hc => List.getElem?_set_ne fun e => hc (by rw [e])⟩

theorem tail_iff {d e : List Nat} (hd : d ≠ []) :
    (d.length = e.length + 1 ∧ (List.range e.length).all (fun i => decide (d.getD (i + 1) 0 = e.getD i 0)) = true) ↔ d.tail = e := by
  cases d with
  | nil => exact absurd rfl hd
  | cons a d =>
    simp only [List.length_cons, Nat.add_right_cancel_iff, List.tail_cons, List.getD_cons_succ, List.all_eq_true, List.mem_range, decide_eq_true_eq]
    constructor
    · rintro ⟨h1, h2⟩
      refine List.ext_getElem h1 fun i h3 h4 => ?_
      have := h2 i h4
      rwa [List.getD_eq_getElem _ _ h3, List.getD_eq_getElem _ _ h4] at this
    · rintro rfl
      exact ⟨rfl, fun _ _ => rfl⟩

theorem step_sim (junk : Nat → Nat → α) {s : State α} {t t' : Nat → Option (Val α)} (hs : Sound (liveAt s.heap) s.vars) (hm : Matches s t) {c : Cmd α} (e : vstep t c = .ok t') :
    ∃ s', step junk s c = .ok s' ∧ Matches s' t' := by
  have alive : ∀ {v : Nat} {o : Obj} {x : Val α} {b : Nat}, s.vars v = some o → Means s.heap o x → o.ptr = some (b, 0) → b < s.heap.length := fun {v o x b} hv h hp =>
    live_lt (hs.live v (b, 0) (by rw [hv, h.own, hp])).2
  have alive' : ∀ {v : Nat} {o : Obj} {b : Nat}, s.vars v = some o → o.ptr = some (b, 0) → b < s.heap.length := fun {v o b} hv hp => by
    have := hm v
    rw [hv] at this
    cases e : t v with
    | none => rw [e] at this; exact this.elim
    | some x => rw [e] at this; exact alive hv this hp
  cases c with
  | new v dims f =>
    simp only [vstep] at e
    split at e
    · next h =>
      cases e
      obtain ⟨hv, hd⟩ := h
      have h0 := hm.free_var hv
      obtain ⟨a1, a2⟩ := alloc_get junk s.heap (max (RA.cells dims) 1)
      have hc := (RA.cells_pos dims).2
      obtain ⟨h', w1, w2, w3, w4⟩ := writeN_ok (i := 0) (v := (List.range dims.prod).map f) a1 (by simp; omega)
      refine ⟨_, ?_, hm.put (v := v) (h' := h') (o := some ⟨dims, rmStrides dims, dims.prod, RA.cells dims, some (s.heap.length, 0), false⟩) (fun w _ o b h1 h2 => ?_) ?_⟩
      · simp only [step, new]
        rw [unused, h0, show Res.need (none : Option Obj).isNone = .ok () from rfl, Res.ok_bind, RA.noalloc_ok hd, Res.ok_bind]
        simp only
        rw [show (alloc junk s.heap (max (RA.cells dims) 1)).2 = (s.heap.length, 0) from rfl, w1, Res.ok_bind]
      · have := alive' h1 h2
        rw [w4 b (by omega), a2 b (by omega)]
      · refine ⟨rfl, rfl, hd, by rw [compact_rm], rfl, hc, by simp, s.heap.length, _, rfl, w3, ?_, ?_⟩
        · simp; omega
        · rw [List.take_zero, List.nil_append, List.take_append_of_le_length (by simp), List.take_of_length_le (by simp)]
    · cases e
  | copy v w =>
    simp only [vstep] at e
    split at e
    · next d l hv hw =>
      cases e
      obtain ⟨o, ho, hmo⟩ := hm.get hw
      obtain ⟨d1, b, B, d2, d3, d4, d5⟩ := hmo.data
      have hr := hmo.room
      simp only at d1 d5 hr
      obtain ⟨h', C, e1, e2, e3, e4, e5⟩ := fresh_copy junk (n := d.prod) (k := max o.memsize 1) d3 (by omega) (by omega)
      refine ⟨_, ?_, hm.put (v := v) (h' := h') (o := some ⟨o.dims, o.strides, o.asize, o.memsize, some (s.heap.length, 0), false⟩) (fun w _ o b h1 h2 => ?_) ?_⟩
      · simp only [step, RAM.copy]
        rw [unused, hm.free_var hv, show Res.need (none : Option Obj).isNone = .ok () from rfl, Res.ok_bind, look_ok.2 ho, Res.ok_bind]
        rw [show (alloc junk s.heap (max o.memsize 1)).2 = (s.heap.length, 0) from rfl, d2, show o.asize = d.prod from hmo.asize, e1, Res.ok_bind]
      · have := alive' h1 h2
        rw [e5 b (by omega)]
      · exact ⟨rfl, hmo.dims, hmo.ne, hmo.strides, hmo.asize, hmo.room, d1, s.heap.length, C, rfl, e2, by simp only; omega, by rw [← d5]; exact e4⟩
    · cases e
  | move v w =>
    simp only [vstep] at e
    split at e
    · next x hv hw =>
      cases e
      obtain ⟨o, ho, hmo⟩ := hm.get hw
      have h1 := hm.put (v := v) (h' := s.heap) (o := some o) (x := some x) (fun _ _ _ _ _ _ => rfl) hmo
      have h2 := h1.put (v := w) (h' := s.heap) (o := some { o with ptr := none }) (x := some ⟨x.dims, none⟩) (fun _ _ _ _ _ _ => rfl)
        ⟨hmo.owner, hmo.dims, hmo.ne, hmo.strides, hmo.asize, hmo.room, rfl⟩
      refine ⟨_, ?_, h2⟩
      simp only [step, RAM.move]
      rw [unused, hm.free_var hv, show Res.need (none : Option Obj).isNone = .ok () from rfl, Res.ok_bind, look_ok.2 ho, Res.ok_bind]
      rfl
    · cases e
  | assign v w =>
    simp only [vstep] at e
    split at e
    · cases e
    next hvw =>
    split at e
    · next y d l hv hw =>
      cases e
      obtain ⟨r, hr, hmr⟩ := hm.get hv
      obtain ⟨o, ho, hmo⟩ := hm.get hw
      obtain ⟨d1, b, B, d2, d3, d4, d5⟩ := hmo.data
      have hroom := hmo.room
      simp only at d1 d5 hroom
      obtain ⟨h1, f1, f2, f3⟩ := free_ok hmr
      have hb1 : h1[b]? = some (some B) := (f3 b fun e => RAM.Sound.ne hs hm hvw hr ho e d2 rfl).trans d3
      obtain ⟨h', C, e1, e2, e3, e4, e5⟩ := fresh_copy junk (n := d.prod) (k := max o.memsize 1) hb1 (by omega) (by omega)
      have key := hm.put (v := v) (h' := h') (o := some ⟨o.dims, o.strides, o.asize, max o.memsize 1, some (h1.length, 0), false⟩) (x := some ⟨d, some l⟩)
        (fun w hw o1 c k1 k2 => by
          have := alive' k1 k2
          rw [e5 c (by omega), f3 c fun e => RAM.Sound.ne hs hm hw k1 hr k2 e rfl])
        ⟨rfl, hmo.dims, hmo.ne, hmo.strides, hmo.asize, by simp only; omega, d1, h1.length, C, rfl, e2, by simp only; omega, by rw [← d5]; exact e4⟩
      refine ⟨_, ?_, key⟩
      have hv1 : look (RAM.put s v (some { r with dims := o.dims, strides := o.strides, memsize := max o.memsize 1 })) v
          = .ok { r with dims := o.dims, strides := o.strides, memsize := max o.memsize 1 } := look_ok.2 (by simp [RAM.put])
      have hw1 : ∀ z : Option Obj, look (RAM.put s v z) w = .ok o := fun z => look_ok.2 (by simp [RAM.put, Ne.symm hvw, ho])
      have hw2 : ∀ (z y : Option Obj) (h : List (Option (List α))), look (RAM.put { RAM.put s v z with heap := h } v y) w = .ok o := fun z y h => look_ok.2 (by simp [RAM.put, Ne.symm hvw, ho])
      simp only [step, assign]
      rw [look_ok.2 hr, Res.ok_bind, look_ok.2 ho, Res.ok_bind, hv1, Res.ok_bind, hw1, Res.ok_bind]
      simp only [hmr.owner, Bool.false_eq_true, if_false]
      change (free s.heap r.ptr >>= _) = _
      rw [f1, Res.ok_bind]
      change (look (RAM.put { RAM.put s v (some ⟨o.dims, o.strides, r.asize, max o.memsize 1, r.ptr, false⟩) with heap := (alloc junk h1 (max o.memsize 1)).1 } v
        (some ⟨o.dims, o.strides, o.asize, max o.memsize 1, some (h1.length, 0), false⟩)) w >>= _) = _
      rw [hw2, Res.ok_bind]
      change (copyN (alloc junk h1 (max o.memsize 1)).1 o.ptr o.asize (some (h1.length, 0)) 0 >>= _) = _
      rw [d2, show o.asize = d.prod from hmo.asize, e1, Res.ok_bind]
      refine congrArg Res.ok ?_
      simp only [RAM.put, State.mk.injEq, true_and]
      funext u
      split <;> rfl
    · cases e
  | moveAssign v w =>
    simp only [vstep] at e
    split at e
    · cases e
    next hvw =>
    split at e
    · next y x hv hw =>
      cases e
      obtain ⟨r, hr, hmr⟩ := hm.get hv
      obtain ⟨o, ho, hmo⟩ := hm.get hw
      obtain ⟨h1, f1, f2, f3⟩ := free_ok hmr
      have hmo' : Means h1 o x := hmo.keep fun b hb => f3 b fun e => RAM.Sound.ne hs hm hvw hr ho e hb rfl
      have k1 := hm.put (v := v) (h' := h1) (o := some o) (x := some x) (fun u hu o1 c k1 k2 => f3 c fun e => RAM.Sound.ne hs hm hu k1 hr k2 e rfl) hmo'
      have k2 := k1.put (v := w) (h' := h1) (o := some { o with ptr := none }) (x := some ⟨x.dims, none⟩) (fun _ _ _ _ _ _ => rfl)
        ⟨hmo.owner, hmo.dims, hmo.ne, hmo.strides, hmo.asize, hmo.room, rfl⟩
      refine ⟨_, ?_, k2⟩
      simp only [step, moveAssign]
      rw [look_ok.2 hr, Res.ok_bind, look_ok.2 ho, Res.ok_bind]
      simp only [hmr.owner, Bool.false_eq_true, if_false]
      rw [f1, Res.ok_bind, (look_ok (s := RAM.put { s with heap := h1 } v (some o)) (v := w) (o := o)).2 (by simp [RAM.put, Ne.symm hvw, ho]), Res.ok_bind]
      rfl
    · cases e
  | reserve v n =>
    simp only [vstep] at e
    split at e
    · next d l hv =>
      split at e
      · cases e
      · next ht =>
        cases e
        obtain ⟨o, ho, hmo⟩ := hm.get hv
        obtain ⟨h', o', e1, e2, _, _, e5, e6, e7⟩ := reserve_ok junk hmo ht n
        have := hm.put (v := v) (h' := h') (o := some o') (x := t v) (fun w hw o1 b h1 h2 => e7 b (alive' h1 h2) fun h3 => RAM.Sound.ne hs hm hw h1 ho h2 h3 rfl) (by rw [hv]; exact e2)
        refine ⟨_, ?_, (congrArg (Matches _) ?_).mp this⟩
        · simp only [step]
          rw [look_ok.2 ho, Res.ok_bind, e1, Res.ok_bind]
        · funext w
          simp only [vput]
          split
          · next h => rw [h]
          · rfl
    · cases e
  | push v w =>
    simp only [vstep] at e
    split at e
    · next D l E k hv hw =>
      split at e
      · cases e
      next hDE =>
      split at e
      · cases e
      next hE =>
      cases e
      simp only [ne_eq, not_not] at hDE
      obtain ⟨o, ho, hmo⟩ := hm.get hv
      obtain ⟨x, hx, hmx⟩ := hm.get hw
      have hvw : v ≠ w := by
        rintro rfl
        rw [hv] at hw
        have hne := hmo.ne
        cases D with
        | nil => exact hne rfl
        | cons a D =>
          injection hw with hw
          injection hw with h1 _
          have := congrArg List.length (h1.trans hDE.symm)
          simp at this
      have ht : D.tail.prod ≠ 0 := by rw [hDE]; exact hE
      obtain ⟨d, hd⟩ : ∃ d, D = d :: E := by
        have hne := hmo.ne
        cases D with
        | nil => exact absurd rfl hne
        | cons a D => exact ⟨a, by rw [← hDE]; rfl⟩
      obtain ⟨x1, bx, X, x2, x3, x4, x5⟩ := hmx.data
      have hxr := hmx.room
      simp only at x1 x5 hxr
      have xlt := block_lt x3
      have oX : o.ptr ≠ some (bx, 0) := fun e => RAM.Sound.ne hs hm hvw ho hx e x2 rfl
      have chk := (tail_iff (d := o.dims) (e := x.dims) (by rw [hmo.dims]; exact hmo.ne)).2 (by rw [hmo.dims, hmx.dims]; exact hDE)
      -- first growth
      have hcap : ∀ {h : List (Option (List α))} {o : Obj}, Means h o ⟨D, some l⟩ → capacity0 o = .ok (o.memsize / D.tail.prod) := fun {h o} hm => by
        rw [capacity0, stride0 hm, Res.ok_bind, show Res.need (decide (D.tail.prod ≠ 0)) = .ok () by rw [decide_eq_true ht]; rfl, Res.ok_bind]
      have g1 : ∃ h1 o1, (if o.memsize / D.tail.prod = 0 then reserve0 junk s.heap o 1 else .ok (s.heap, o)) = .ok (h1, o1) ∧ Means h1 o1 ⟨D, some l⟩ ∧ 1 * D.tail.prod ≤ o1.memsize ∧
          (∀ b, o1.ptr = some (b, 0) → o.ptr = some (b, 0) ∨ s.heap.length ≤ b) ∧ s.heap.length ≤ h1.length ∧ ∀ c, c < s.heap.length → o.ptr ≠ some (c, 0) → h1[c]? = s.heap[c]? := by
        split
        · obtain ⟨h1, o1, e1, e2, e3, _, e5, e6, e7⟩ := reserve_ok junk hmo ht 1
          exact ⟨h1, o1, e1, e2, e3, e5, e6, e7⟩
        · next hc => exact ⟨_, _, rfl, hmo, (Nat.le_div_iff_mul_le (Nat.pos_of_ne_zero ht)).1 (Nat.pos_of_ne_zero hc), fun _ h => .inl h, Nat.le_refl _, fun _ _ _ => rfl⟩
      obtain ⟨h1, o1, e1, m1, r1, p1, l1, q1⟩ := g1
      have g2 : ∃ h2 o2, (if o1.memsize / D.tail.prod < d + 1 then reserve0 junk h1 o1 (2 * d) else .ok (h1, o1)) = .ok (h2, o2) ∧ Means h2 o2 ⟨D, some l⟩ ∧
          (d + 1) * D.tail.prod ≤ o2.memsize ∧
          (∀ b, o2.ptr = some (b, 0) → o1.ptr = some (b, 0) ∨ h1.length ≤ b) ∧ h1.length ≤ h2.length ∧ ∀ c, c < h1.length → o1.ptr ≠ some (c, 0) → h2[c]? = h1[c]? := by
        split
        · next hc =>
          obtain ⟨h2, o2, e1, e2, e3, e4, e5, e6, e7⟩ := reserve_ok junk m1 ht (2 * d)
          refine ⟨h2, o2, e1, e2, ?_, e5, e6, e7⟩
          rcases Nat.eq_zero_or_pos d with h0 | h0
          · subst h0; rw [Nat.zero_add]; omega
          · exact Nat.le_trans (Nat.mul_le_mul_right _ (by omega)) e3
        · next hc => exact ⟨_, _, rfl, m1, (Nat.le_div_iff_mul_le (Nat.pos_of_ne_zero ht)).1 (Nat.le_of_not_lt hc), fun _ h => .inl h, Nat.le_refl _, fun _ _ _ => rfl⟩
      obtain ⟨h2, o2, e2, m2, r2, p2, l2, q2⟩ := g2
      obtain ⟨y1, b, B, y2, y3, y4, y5⟩ := m2.data
      simp only at y1 y5
      -- the blocks of others are as before
      have far : ∀ c, c < s.heap.length → o.ptr ≠ some (c, 0) → h2[c]? = s.heap[c]? ∧ b ≠ c := fun c hc hoc => by
        have h1c : o1.ptr ≠ some (c, 0) := fun e => by
          rcases p1 c e with h | h
          · exact hoc h
          · omega
        refine ⟨(q2 c (by omega) h1c).trans (q1 c hc hoc), fun e => ?_⟩
        rcases p2 b y2 with h | h
        · rw [e] at h; exact h1c h
        · omega
      obtain ⟨X1, X2⟩ := far bx xlt oX
      have hDp : D.prod = d * E.prod := by rw [hd, List.prod_cons]
      have hr2 : d * E.prod + E.prod ≤ B.length := by
        rw [hDE, Nat.add_mul, Nat.one_mul] at r2
        omega
      obtain ⟨h', w1, w2, w3, w4⟩ := copyN_ok (n := E.prod) (i := d * E.prod) (X1.trans x3) y3 (Ne.symm X2) (by omega) hr2
      have key := hm.put (v := v) (h' := h') (o := some { o2 with asize := o2.asize + x.asize, dims := o2.dims.set 0 (d + 1) }) (x := some ⟨(D.headD 0 + 1) :: E, some (l ++ k)⟩)
        (fun u hu o' c k1 k2 => by
          obtain ⟨z1, z2⟩ := far c (alive' k1 k2) fun e => RAM.Sound.ne hs hm hu k1 ho k2 e rfl
          rw [w4 c (Ne.symm z2), z1])
        { owner := m2.owner
          dims := by simp only; rw [m2.dims]; simp only [hd]; rfl
          ne := List.cons_ne_nil _ _
          strides := by
            simp only
            rw [m2.strides]
            simp only [hd]
            cases E <;> simp [List.tails]
          asize := by
            simp only
            rw [m2.asize, hmx.asize, List.prod_cons, Nat.add_mul, Nat.one_mul]
            simp only [hd, List.headD_cons, List.prod_cons]
          room := by
            rw [List.prod_cons, hd, List.headD_cons, ← hDE]; exact r2
          data := by
            refine ⟨?_, b, _, y2, w3, ?_, ?_⟩
            · rw [List.length_append, y1, x1, hDp, List.prod_cons, hd, List.headD_cons, Nat.add_mul, Nat.one_mul]
            · simp only [List.length_append, List.length_take, List.length_drop]
              omega
            · rw [List.prod_cons, hd, List.headD_cons, Nat.add_mul, Nat.one_mul]
              rw [List.take_append_of_le_length (by simp; omega), List.take_of_length_le (by simp; omega)]
              rw [x5, ← hDp, y5] }
      refine ⟨_, ?_, key⟩
      simp only [step, push]
      rw [look_ok.2 ho, Res.ok_bind, look_ok.2 hx, Res.ok_bind, hmo.owner, show Res.assrt (!false) = .ok () from rfl, Res.ok_bind, decide_eq_true chk.1, Res.assrt_true, Res.ok_bind, chk.2, Res.assrt_true, Res.ok_bind,
        hcap hmo, Res.ok_bind, e1, Res.ok_bind]
      simp only
      rw [hcap m1, Res.ok_bind, show Res.get o1.dims 0 = .ok d by rw [m1.dims, hd]; rfl, Res.ok_bind, e2, Res.ok_bind]
      simp only
      rw [stride0 m2, Res.ok_bind]
      simp only
      rw [x2, y2, hDE, show x.asize = E.prod from hmx.asize, w1, Res.ok_bind]
    · cases e
  | setCell v i a =>
    simp only [vstep] at e
    split at e
    · next d l hv =>
      split at e
      · next hi =>
        cases e
        obtain ⟨o, ho, hmo⟩ := hm.get hv
        obtain ⟨d1, b, B, d2, d3, d4, d5⟩ := hmo.data
        have hr := hmo.room
        simp only at d1 d5 hr
        obtain ⟨h', w1, w2, w3, w4⟩ := writeN_ok (i := i) (v := [a]) d3 (by simp; omega)
        have := hm.put (v := v) (h' := h') (o := some o) (x := some ⟨d, some (l.set i a)⟩) (fun w hw o1 c h1 h2 => w4 c (RAM.Sound.ne hs hm hw h1 ho h2 d2))
          ⟨hmo.owner, hmo.dims, hmo.ne, hmo.strides, hmo.asize, hmo.room, by simpa using d1, b, _, d2, w3, by simp; omega, by
            simp only
            rw [List.append_assoc, List.singleton_append, List.length_singleton]
            have := List.set_eq_take_append_cons_drop (l := B) (i := i) (a := a)
            rw [if_pos (by omega)] at this
            rw [← this, List.take_set, d5]⟩
        refine ⟨_, ?_, this⟩
        simp only [step, setCell]
        rw [look_ok.2 ho, Res.ok_bind, d2, w1, Res.ok_bind]
        refine congrArg Res.ok ?_
        simp only [RAM.put, State.mk.injEq, true_and]
        funext w
        split
        · next h => rw [h, ho]
        · rfl
      · cases e
    · cases e
  | destroy v =>
    simp only [vstep] at e
    split at e
    · next x hv =>
      cases e
      obtain ⟨o, ho, hmo⟩ := hm.get hv
      obtain ⟨h1, f1, f2, f3⟩ := free_ok hmo
      refine ⟨_, ?_, hm.put (v := v) (h' := h1) (o := none) (x := none) (fun u hu o1 c k1 k2 => f3 c fun e => RAM.Sound.ne hs hm hu k1 ho k2 e rfl) trivial⟩
      simp only [step, destroy]
      rw [look_ok.2 ho, Res.ok_bind]
      simp only [hmo.owner, Bool.false_eq_true, if_false]
      rw [f1, Res.ok_bind]
    · cases e
  | view _ _ => cases e
  | slice0 _ _ _ => cases e
  | reshape _ _ => cases e

theorem step_throws (junk : Nat → Nat → α) {s : State α} {t : Nat → Option (Val α)} (hm : Matches s t) {c : Cmd α} (e : vstep t c = .throw) : step junk s c = .throw := by
  cases c with
  | push v w =>
    simp only [vstep] at e
    split at e
    · next D l E k hv hw =>
      split at e
      · next hDE =>
        obtain ⟨o, ho, hmo⟩ := hm.get hv
        obtain ⟨x, hx, hmx⟩ := hm.get hw
        have chk := (tail_iff (d := o.dims) (e := x.dims) (by rw [hmo.dims]; exact hmo.ne)).not.2 (by rw [hmo.dims, hmx.dims]; exact hDE)
        simp only [step, push]
        rw [look_ok.2 ho, Res.ok_bind, look_ok.2 hx, Res.ok_bind, hmo.owner, show Res.assrt (!false) = .ok () from rfl, Res.ok_bind]
        by_cases h1 : o.dims.length = x.dims.length + 1
        · rw [decide_eq_true h1, Res.assrt_true, Res.ok_bind, Bool.eq_false_iff.2 fun h2 => chk ⟨h1, h2⟩]
          rfl
        · rw [decide_eq_false h1]
          rfl
      · split at e <;> cases e
    · cases e
  | new _ _ _ => simp only [vstep] at e; split at e <;> cases e
  | copy _ _ => simp only [vstep] at e; split at e <;> cases e
  | move _ _ => simp only [vstep] at e; split at e <;> cases e
  | assign _ _ => simp only [vstep] at e; split at e <;> first | cases e | (split at e <;> cases e)
  | moveAssign _ _ => simp only [vstep] at e; split at e <;> first | cases e | (split at e <;> cases e)
  | reserve _ _ => simp only [vstep] at e; split at e <;> first | cases e | (split at e <;> cases e)
  | setCell _ _ _ => simp only [vstep] at e; split at e <;> first | cases e | (split at e <;> cases e)
  | destroy _ => simp only [vstep] at e; split at e <;> cases e
  | view _ _ => cases e
  | slice0 _ _ _ => cases e
  | reshape _ _ => cases e

theorem start_matches : Matches (start : State α) fun _ => none := fun _ => trivial

/-- A program of new tensors, copies, moves, assignments between different tensors, growth and writes computes on values: copies are independent, and what new arrays
held before does not matter. -/
theorem C386_values (junk : Nat → Nat → α) (p : List (Cmd α)) {s : State α} {t t' : Nat → Option (Val α)} (hs : Sound (liveAt s.heap) s.vars) (hm : Matches s t)
    (h : vrun t p = .ok t') : ∃ s', RAM.run junk s p = .ok s' ∧ Sound (liveAt s'.heap) s'.vars ∧ Matches s' t' := by
  induction p generalizing s t with
  | nil => cases h; exact ⟨s, rfl, hs, hm⟩
  | cons c p ih =>
    rw [vrun, Res.forM_cons] at h
    obtain ⟨t1, h1, h2⟩ := Res.bind_eq_ok.1 h
    obtain ⟨s1, e1, m1⟩ := step_sim junk hs hm h1
    obtain ⟨s', e2, m2⟩ := ih (step_sound hs e1) m1 h2
    exact ⟨s', by rw [RAM.run, Res.forM_cons, e1, Res.ok_bind]; exact e2, m2⟩

/-- A slice of the wrong sizes is refused. -/
theorem C386_refused (junk : Nat → Nat → α) (p : List (Cmd α)) {s : State α} {t : Nat → Option (Val α)} (hs : Sound (liveAt s.heap) s.vars) (hm : Matches s t)
    (h : vrun t p = .throw) : RAM.run junk s p = .throw := by
  induction p generalizing s t with
  | nil => cases h
  | cons c p ih =>
    rw [vrun, Res.forM_cons] at h
    rw [RAM.run, Res.forM_cons]
    cases h1 : vstep t c with
    | ok t1 =>
      rw [h1, Res.ok_bind] at h
      obtain ⟨s1, e1, m1⟩ := step_sim junk hs hm h1
      rw [e1, Res.ok_bind]
      exact ih (step_sound hs e1) m1 h
    | throw => rw [step_throws junk hm h1]; rfl
    | ub => rw [h1] at h; cases h

example : ∃ t : Nat → Option (Val Int), vrun (fun _ => none) [.new 0 [1, 2] fun i => (i : Int), .copy 1 0, .setCell 0 1 7, .new 2 [2] fun _ => 5, .push 1 2, .assign 0 1, .move 3 0] = .ok t ∧
    t 3 = some ⟨[2, 2], some [0, 1, 5, 5]⟩ ∧ t 0 = some ⟨[2, 2], none⟩ := ⟨_, rfl, rfl, rfl⟩

example : vrun (fun _ => none) [.new 0 [1, 2] fun i => (i : Int), .new 2 [3] fun _ => 5, .push 0 2] = .throw := rfl

/-- A view of slice `i` shows the entries of that slice, and what is written to it is written to the tensor. -/
theorem C386_slice {s : State α} {t : Nat → Option (Val α)} (hm : Matches s t) {v w d i : Nat} {E : List Nat} {l : List α} (hw : t w = some ⟨d :: E, some l⟩) (hv : t v = none) (hi : i < d) :
    ∃ s' o x, slice0 s v w i = .ok s' ∧ s'.heap = s.heap ∧ s'.vars v = some o ∧ o.isView = true ∧ o.dims = E ∧ o.strides = E.tails.tail.map List.prod ∧ o.asize = E.prod ∧
      s'.vars w = some x ∧ readN s'.heap o.ptr 0 o.asize = .ok ((l.drop (i * E.prod)).take E.prod) ∧
      ∀ j a, j < E.prod → ∃ s2, setCell s' v j a = .ok s2 ∧ readN s2.heap x.ptr 0 l.length = .ok (l.set (i * E.prod + j) a) := by
  have h1 := hm w
  have h2 := hm v
  rw [hw] at h1
  rw [hv] at h2
  cases hx : s.vars w with
  | none => rw [hx] at h1; exact h1.elim
  | some x =>
  rw [hx] at h1
  have hvn : s.vars v = none := by
    cases e : s.vars v with
    | none => rfl
    | some y => rw [e] at h2; exact h2.elim
  have hne : w ≠ v := fun c => by rw [c, hvn] at hx; cases hx
  have h1 : Means s.heap x ⟨d :: E, some l⟩ := h1
  obtain ⟨hl, b, B, hp, hB, hm1, hm2⟩ := h1.data
  have hd : x.dims = d :: E := h1.dims
  have hs : x.strides = (d :: E).tails.tail.map List.prod := h1.strides
  have hst : x.strides = E.prod :: E.tails.tail.map List.prod := by
    rw [hs]
    cases E <;> simp [List.tails]
  have ha : x.asize = d * E.prod := by rw [h1.asize]; exact List.prod_cons
  have hroom := h1.room
  dsimp only at hl hm2 hroom
  rw [List.prod_cons] at hl hm2 hroom
  have hmul : (i + 1) * E.prod ≤ d * E.prod := Nat.mul_le_mul_right _ hi
  rw [Nat.add_mul, Nat.one_mul] at hmul
  have hcomm : E.prod * i = i * E.prod := Nat.mul_comm _ _
  refine ⟨put s v (some ⟨E, E.tails.tail.map List.prod, E.prod, x.memsize / d, some (b, E.prod * i), true⟩), _, x, ?_, rfl, if_pos rfl, rfl, rfl, rfl, rfl, ?_, ?_, ?_⟩
  · have hg : gvRemove x.dims 0 = .ok E := by rw [hd]; exact gvRemove_split [] E d
    have hg2 : Res.get x.dims 0 = .ok d := by rw [hd]; rfl
    have hg3 : Res.get x.strides 0 = .ok E.prod := by rw [hst]; rfl
    have hdiv : x.asize / d = E.prod := by rw [ha, Nat.mul_div_cancel_left _ (by omega)]
    rw [slice0, unused, hvn, Option.isNone_none]
    have hdd : decide (d ≠ 0) = true := decide_eq_true (by omega)
    rw [Res.need, if_pos rfl, Res.ok_bind, look_ok.2 hx, Res.ok_bind, hg, Res.ok_bind, hg2, Res.ok_bind, Res.need, if_pos hdd, Res.ok_bind, hg3, Res.ok_bind, hp, hdiv, hst, Option.map_some]
    dsimp only
    rw [Nat.zero_add]
    rfl
  · exact (if_neg hne).trans hx
  · have hlB : l.length ≤ B.length := by rw [hl]; omega
    show readN s.heap (some (b, E.prod * i)) 0 E.prod = _
    unfold readN
    by_cases c : E.prod = 0
    · rw [if_pos c, c]; simp
    · rw [if_neg c]
      simp only [hB]
      rw [if_pos (by omega), ← hm2, Nat.add_zero, hcomm, List.drop_take, List.take_take, Nat.min_eq_left (by omega)]
  · intro j a hj
    have hlB : l.length ≤ B.length := by rw [hl]; omega
    have hvv : (put s v (some (⟨E, E.tails.tail.map List.prod, E.prod, x.memsize / d, some (b, E.prod * i), true⟩ : Obj))).vars v = some ⟨E, E.tails.tail.map List.prod, E.prod, x.memsize / d, some (b, E.prod * i), true⟩ := if_pos rfl
    have hwr : writeN s.heap (some (b, E.prod * i)) j [a] = .ok (s.heap.set b (some (B.set (i * E.prod + j) a))) := by
      unfold writeN
      rw [if_neg (by simp)]
      simp only [hB]
      have hset : B.set (i * E.prod + j) a = B.take (i * E.prod + j) ++ a :: B.drop (i * E.prod + j + 1) := by
        rw [List.set_eq_take_append_cons_drop, if_pos (by omega)]
      rw [if_pos (by rw [List.length_singleton]; omega), hcomm, hset]
      simp
    refine ⟨_, by rw [setCell, look_ok.2 hvv, Res.ok_bind]; dsimp only [put]; rw [hwr]; rfl, ?_⟩
    have hlt := (List.getElem?_eq_some_iff.mp hB).1
    dsimp only [put]
    rw [hp]
    unfold readN
    rw [if_neg (by omega)]
    simp only [List.getElem?_set_self hlt]
    rw [if_pos (by rw [List.length_set]; omega), Nat.zero_add, List.drop_zero, List.take_set, hl, hm2]

example : (∃ s, RAM.run (fun _ _ => (0 : Int)) start [.new 0 [2, 2] fun i => (i : Int), .slice0 1 0 1, .setCell 1 0 9] = .ok s ∧
    readN s.heap (some (0, 0)) 0 4 = .ok [0, 1, 9, 3]) := ⟨_, rfl, rfl⟩

/-! ### C387: growth -/

theorem vrun_push {t : Nat → Option (Val α)} {v d : Nat} {E : List Nat} {l : List α} (hv : t v = some ⟨d :: E, some l⟩) (hE : E.prod ≠ 0) (row : Nat → List α) (ws : List Nat)
    (hw : ∀ w ∈ ws, t w = some ⟨E, some (row w)⟩) :
    vrun t (ws.map fun w => .push v w) = .ok (vput t v (some ⟨(d + ws.length) :: E, some (l ++ ws.flatMap row)⟩)) := by
  induction ws generalizing t d l with
  | nil =>
    refine congrArg Res.ok ?_
    funext w
    simp only [vput]
    split
    · next h => rw [h, hv]; simp
    · rfl
  | cons w ws ih =>
    have hw0 := hw w (by simp)
    have hne : ∀ u ∈ w :: ws, u ≠ v := fun u hu e => by
      have := hw u hu
      rw [e, hv] at this
      injection this with this
      injection this with this _
      exact absurd (congrArg List.length this) (by simp)
    rw [vrun, List.map_cons, Res.forM_cons]
    simp only [vstep, hv, hw0, List.tail_cons, ne_eq, not_true_eq_false, if_false, hE, List.headD_cons]
    rw [Res.ok_bind]
    refine (ih (t := vput t v (some ⟨(d + 1) :: E, some (l ++ row w)⟩)) (d := d + 1) (l := l ++ row w) (by simp [vput]) fun u hu => ?_).trans ?_
    · rw [vput, if_neg (hne u (List.mem_cons_of_mem _ hu))]
      exact hw u (List.mem_cons_of_mem _ hu)
    · refine congrArg Res.ok ?_
      funext u
      simp only [vput]
      split
      · simp only [List.length_cons, List.flatMap_cons, List.append_assoc]
        rw [show d + 1 + ws.length = d + (ws.length + 1) by omega]
      · rfl

/-- Any number of slices can be appended: the tensor then holds its old entries and the slices in order, and the other tensors are as before. -/
theorem C387_grow (junk : Nat → Nat → α) {s : State α} {t : Nat → Option (Val α)} (hs : Sound (liveAt s.heap) s.vars) (hm : Matches s t) {v d : Nat} {E : List Nat} {l : List α}
    (hv : t v = some ⟨d :: E, some l⟩) (hE : E.prod ≠ 0) (row : Nat → List α) (ws : List Nat) (hw : ∀ w ∈ ws, t w = some ⟨E, some (row w)⟩) :
    ∃ s', RAM.run junk s (ws.map fun w => .push v w) = .ok s' ∧ Sound (liveAt s'.heap) s'.vars ∧
      Matches s' (vput t v (some ⟨(d + ws.length) :: E, some (l ++ ws.flatMap row)⟩)) :=
  C386_values junk _ hs hm (vrun_push hv hE row ws hw)

/-- From nothing: a tensor of no slices, appended to over and over. -/
theorem C387_grow_from_empty (junk : Nat → Nat → α) (E : List Nat) (hE : E ≠ []) (hp : E.prod ≠ 0) (f g : Nat → α) (n : Nat) :
    ∃ s', RAM.run junk start ([.new 0 (0 :: E) g, .new 1 E f] ++ List.replicate n (.push 0 1)) = .ok s' ∧
      ∃ o, s'.vars 0 = some o ∧ Means s'.heap o ⟨n :: E, some ((List.replicate n ((List.range E.prod).map f)).flatten)⟩ := by
  have h1 : vrun (fun _ => none) ([.new 0 (0 :: E) g, .new 1 E f] : List (Cmd α)) =
      .ok (vput (vput (fun _ => none) 0 (some ⟨0 :: E, some []⟩)) 1 (some ⟨E, some ((List.range E.prod).map f)⟩)) := by
    rw [vrun, Res.forM_cons]
    simp only [vstep, ne_eq, List.cons_ne_nil, not_false_eq_true, and_self, if_true]
    rw [Res.ok_bind, Res.forM_cons]
    simp only [vstep, vput, hE, ne_eq, not_false_eq_true, and_true, Nat.one_ne_zero, if_true, if_false]
    rw [Res.ok_bind, Res.forM_nil]
    simp
  obtain ⟨s1, e1, k1, m1⟩ := C386_values junk _ start_sound start_matches h1
  obtain ⟨s2, e2, _, m2⟩ := C387_grow junk k1 m1 (v := 0) (d := 0) (E := E) (l := []) rfl hp (fun _ => (List.range E.prod).map f) (List.replicate n 1)
    (fun w hw => by rw [List.eq_of_mem_replicate hw]; rfl)
  obtain ⟨o, ho, hmo⟩ := m2.get (v := 0) (x := ⟨n :: E, some ((List.replicate n ((List.range E.prod).map f)).flatten)⟩) (by
    simp only [vput, if_true, List.length_replicate, Nat.zero_add, List.nil_append, List.flatMap_replicate])
  refine ⟨s2, ?_, o, ho, hmo⟩
  rw [List.map_replicate] at e2
  rw [RAM.run, Res.forM_append]
  rw [show Res.forM ([.new 0 (0 :: E) g, .new 1 E f] : List (Cmd α)) start (step junk) = .ok s1 from e1, Res.ok_bind]
  exact e2

example : ∃ s, RAM.run (fun _ _ => (9 : Int)) start ([.new 0 [0, 2] fun _ => 0, .new 1 [2] fun i => (i : Int) + 1] ++ List.replicate 3 (.push 0 1)) = .ok s ∧
    ∃ o, s.vars 0 = some o ∧ Means s.heap o ⟨[3, 2], some [1, 2, 1, 2, 1, 2]⟩ :=
  C387_grow_from_empty _ [2] (by simp) (by decide) _ _ 3

/-! ### C388: what fails -/

/-- The outcome is undefined. -/
def RAM.isUb {β : Type} : Res β → Bool
  | .ub => true
  | _ => false

theorem of_isUb {β : Type} {x : Res β} (h : RAM.isUb x = true) : x = .ub := by cases x <;> first | rfl | cases h

/-- Assigning a tensor to itself reads entries that were never written, or the released array: the array is released before it is read. -/
theorem C388_assign_self_fails (junk : Nat → Nat → α) (a : α) : RAM.run junk start [.new 0 [2] fun _ => a, .assign 0 0] = .ub := rfl

/-- Assigning to a tensor a view of it reads a released array. -/
theorem C388_assign_view_fails (junk : Nat → Nat → α) (a : α) : RAM.run junk start [.new 0 [2] fun _ => a, .view 1 0, .assign 0 1] = .ub := rfl

/-- Moving a tensor to itself loses its entries. -/
theorem C388_move_self_fails (junk : Nat → Nat → α) (a : α) : ∃ s, RAM.run junk start [.new 0 [2] fun _ => a, .moveAssign 0 0] = .ok s ∧ ∃ o, s.vars 0 = some o ∧ o.ptr = none :=
  ⟨_, rfl, _, rfl, rfl⟩

/-- Move-assigning to a view leaves the tensor it shows unchanged, where assigning writes through. -/
theorem C388_move_to_view_fails (junk : Nat → Nat → α) (a b : α) :
    (∃ s, RAM.run junk start [.new 0 [1] fun _ => a, .new 1 [1] fun _ => b, .view 2 0, .assign 2 1] = .ok s ∧ readN s.heap (some (0, 0)) 0 1 = .ok [b]) ∧
    ∃ s, RAM.run junk start [.new 0 [1] fun _ => a, .new 1 [1] fun _ => b, .view 2 0, .moveAssign 2 1] = .ok s ∧ readN s.heap (some (0, 0)) 0 1 = .ok [a] :=
  ⟨⟨_, rfl, rfl⟩, ⟨_, rfl, rfl⟩⟩

/-- Appending a slice of the tensor itself reads a released array when the tensor has to grow. -/
theorem C388_push_own_fails : RAM.run (fun _ _ => (0 : Int)) start ([.new 0 [1, 32] fun _ => 1, .slice0 1 0 0, .push 0 1]) = .ub := of_isUb (by decide +kernel)

/-- Growing a tensor whose slices have no entries divides by zero. -/
theorem C388_empty_rows_fails (junk : Nat → Nat → α) (a : α) : RAM.run junk start [.new 0 [2, 0] fun _ => a, .reserve 0 3] = .ub := rfl

/-- After growth, reshaping rounds the recorded room up beyond the array: the next slices are written past its end. -/
theorem C388_reshape_fails :
    RAM.run (fun _ _ => (0 : Int)) start ([.new 0 [1, 3] fun _ => 0, .new 1 [3] fun _ => 1] ++ List.replicate 10 (.push 0 1) ++ [.reshape 0 [11, 3]] ++ List.replicate 10 (.push 0 1)) = .ub :=
  of_isUb (by decide +kernel)

end Cnine
