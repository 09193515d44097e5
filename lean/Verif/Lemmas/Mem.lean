import Verif.Spec.Mem
import Mathlib.Tactic.Ring

/-!
# Lemmas on programs with shared arrays
-/

namespace Cnine

variable {α : Type}

namespace Mem

/-- The object refers to the blob `b`. -/
def refs (b : Nat) (v : Option (Option Nat × Nat)) : Bool :=
  match v with
  | some (some c, _) => decide (c = b)
  | _ => false

/-- An object and the pointer it stands for. -/
def VarRel (blobs : List Blob) : Option (Option Nat × Nat) → Option (Option Ptr) → Prop
  | none, none => True
  | some (none, _), some none => True
  | some (some b, o), some (some p) => ∃ B : Blob, blobs[b]? = some B ∧ p = move B.ptr o
  | _, _ => False

/-- The state `s` stands for `g`; `e b` references to `b` are held outside of `vars`. -/
structure Inv (s : St α) (g : GC α) (e : Nat → Nat) : Prop where
  vars : List.Forall₂ (VarRel s.blobs) s.vars g.vars
  cnt : ∀ (b : Nat) (B : Blob), s.blobs[b]? = some B → B.cnt = s.vars.countP (refs b) + e b
  ext : s.ext = g.ext.map some
  len : s.heap.length = g.heap.length
  own : ∀ (b : Nat) (B : Blob), s.blobs[b]? = some B → B.isView = false → ∃ h, B.ptr = .own h 0 ∧ h < s.heap.length ∧
    (0 < B.cnt → ∃ c : List (Option α), s.heap[h]? = some (some c) ∧ g.heap[h]? = some c) ∧ (B.cnt = 0 → s.heap[h]? = some none)
  inj : ∀ (b : Nat) (B : Blob), s.blobs[b]? = some B → B.isView = false → ∀ (b' : Nat) (B' : Blob), s.blobs[b']? = some B' → B'.isView = false → B.ptr = B'.ptr → b = b'
  view : ∀ (b : Nat) (B : Blob), s.blobs[b]? = some B → B.isView = true → ∃ a o, B.ptr = .ext a o
  all : ∀ h : Nat, h < s.heap.length → ∃ (b : Nat) (B : Blob), s.blobs[b]? = some B ∧ B.isView = false ∧ B.ptr = .own h 0

theorem forall₂_get {β γ : Type} {R : β → γ → Prop} {l : List β} {l' : List γ} (h : List.Forall₂ R l l') (i : Nat) :
    (l[i]? = none ∧ l'[i]? = none) ∨ ∃ x y, l[i]? = some x ∧ l'[i]? = some y ∧ R x y := by
  induction h generalizing i with
  | nil => left; simp
  | cons hr _ ih =>
    cases i with
    | zero => right; exact ⟨_, _, rfl, rfl, hr⟩
    | succ i => simpa using ih i

theorem forall₂_set {β γ : Type} {R : β → γ → Prop} {l : List β} {l' : List γ} (h : List.Forall₂ R l l') (i : Nat) {x : β} {y : γ} (hr : R x y) :
    List.Forall₂ R (l.set i x) (l'.set i y) := by
  induction h generalizing i with
  | nil => exact .nil
  | cons h1 h2 ih =>
    cases i with
    | zero => exact .cons hr h2
    | succ i => exact .cons h1 (ih i)

theorem forall₂_snoc {β γ : Type} {R : β → γ → Prop} {l : List β} {l' : List γ} (h : List.Forall₂ R l l') {x : β} {y : γ} (hr : R x y) :
    List.Forall₂ R (l ++ [x]) (l' ++ [y]) := by
  induction h with
  | nil => exact .cons hr .nil
  | cons h1 _ ih => exact .cons h1 ih

/-- The blobs have the same pointers. -/
theorem VarRel.mono {bs bs' : List Blob} (h : ∀ (b : Nat) (B : Blob), bs[b]? = some B → ∃ B' : Blob, bs'[b]? = some B' ∧ B'.ptr = B.ptr) {x : Option (Option Nat × Nat)}
    {y : Option (Option Ptr)} (r : VarRel bs x y) : VarRel bs' x y := by
  match x, y, r with
  | none, none, _ => trivial
  | some (none, _), some none, _ => trivial
  | some (some b, o), some (some p), ⟨B, h1, h2⟩ =>
    obtain ⟨B', e1, e2⟩ := h b B h1
    exact ⟨B', e1, by rw [h2, e2]⟩

theorem forall₂_mono {β γ : Type} {R R' : β → γ → Prop} {l : List β} {l' : List γ} (h : List.Forall₂ R l l') (hm : ∀ x y, R x y → R' x y) :
    List.Forall₂ R' l l' := by
  induction h with
  | nil => exact .nil
  | cons h1 _ ih => exact .cons (hm _ _ h1) ih

theorem countP_set {β : Type} (p : β → Bool) (l : List β) (i : Nat) (x y : β) (h : l[i]? = some x) :
    (l.set i y).countP p + (if p x then 1 else 0) = l.countP p + (if p y then 1 else 0) := by
  induction l generalizing i with
  | nil => simp at h
  | cons a l ih =>
    cases i with
    | zero =>
      simp only [List.getElem?_cons_zero, Option.some.injEq] at h
      subst h
      simp only [List.set_cons_zero, List.countP_cons]
      omega
    | succ i =>
      simp only [List.getElem?_cons_succ] at h
      simp only [List.set_cons_succ, List.countP_cons]
      have := ih i h
      omega

theorem countP_pos {β : Type} (p : β → Bool) (l : List β) (i : Nat) (x : β) (h : l[i]? = some x) (hp : p x = true) : 0 < l.countP p :=
  List.countP_pos_iff.mpr ⟨x, List.mem_of_getElem? h, hp⟩

/-- One more reference to `b`. -/
def plusOne (e : Nat → Nat) (b : Option Nat) : Nat → Nat := fun c => e c + if b = some c then 1 else 0

theorem set_ptr (bs : List Blob) (b : Nat) (B : Blob) (n : Nat) (h : bs[b]? = some B) :
    ∀ (c : Nat) (C : Blob), bs[c]? = some C → ∃ C' : Blob, (bs.set b { B with cnt := n })[c]? = some C' ∧ C'.ptr = C.ptr := by
  intro c C hc
  by_cases e : b = c
  · subst e
    have : B = C := by rw [h] at hc; exact Option.some.inj hc
    subst this
    have hl := (List.getElem?_eq_some_iff.mp h).1
    exact ⟨{ B with cnt := n }, by rw [List.getElem?_set_self hl], rfl⟩
  · exact ⟨C, by rw [List.getElem?_set_ne e, hc], rfl⟩

theorem set_cases {bs : List Blob} {b : Nat} {B : Blob} (B' : Blob) (h : bs[b]? = some B) {c : Nat} {C : Blob} (hc : (bs.set b B')[c]? = some C) :
    (c = b ∧ C = B') ∨ (c ≠ b ∧ bs[c]? = some C) := by
  by_cases e : b = c
  · subst e
    have hl := (List.getElem?_eq_some_iff.mp h).1
    rw [List.getElem?_set_self hl] at hc
    exact Or.inl ⟨rfl, (Option.some.inj hc).symm⟩
  · rw [List.getElem?_set_ne e] at hc
    exact Or.inr ⟨fun x => e x.symm, hc⟩

theorem retain_ok {s : St α} {g : GC α} {e : Nat → Nat} (h : Inv s g e) (b : Option Nat)
    (hb : ∀ c, b = some c → ∃ B : Blob, s.blobs[c]? = some B ∧ 0 < B.cnt) :
    ∃ s', retain s b = .ok s' ∧ Inv s' g (plusOne e b) ∧ s'.vars = s.vars ∧ (∀ (c : Nat) (C : Blob), s.blobs[c]? = some C → ∃ C' : Blob, s'.blobs[c]? = some C' ∧ C'.ptr = C.ptr) := by
  cases b with
  | none =>
    refine ⟨s, rfl, ?_, rfl, fun c C hc => ⟨C, hc, rfl⟩⟩
    have : plusOne e none = e := by funext c; simp [plusOne]
    rw [this]
    exact h
  | some b =>
    obtain ⟨B, hB, hc⟩ := hb b rfl
    refine ⟨{ s with blobs := s.blobs.set b { B with cnt := B.cnt + 1 } }, ?_, ?_, rfl, set_ptr _ _ _ _ hB⟩
    · unfold retain
      simp only [hB]
      rw [if_neg (by omega)]
    · refine ⟨forall₂_mono h.vars fun x y r => r.mono (set_ptr _ _ _ _ hB), ?_, h.ext, h.len, ?_, ?_, ?_, ?_⟩
      · intro c C hC
        rcases set_cases _ hB hC with ⟨rfl, rfl⟩ | ⟨n, hC⟩
        · simp only [plusOne, if_true]
          rw [h.cnt _ _ hB]; omega
        · rw [h.cnt _ _ hC]
          simp only [plusOne, Option.some.injEq]
          rw [if_neg (fun x => n x.symm)]; rfl
      · intro c C hC hv
        rcases set_cases _ hB hC with ⟨rfl, rfl⟩ | ⟨n, hC⟩
        · obtain ⟨hh, q1, q2, q3, q4⟩ := h.own _ _ hB hv
          exact ⟨hh, q1, q2, fun _ => q3 hc, fun z => absurd z (by simp)⟩
        · exact h.own _ _ hC hv
      · intro c C hC hv c' C' hC' hv' ep
        rcases set_cases _ hB hC with ⟨ec, eC⟩ | ⟨n, hC⟩ <;> rcases set_cases _ hB hC' with ⟨ec', eC'⟩ | ⟨n', hC'⟩
        · rw [ec, ec']
        · rw [ec]; exact h.inj _ _ hB (by rw [eC] at hv; exact hv) _ _ hC' hv' (by rw [eC] at ep; exact ep)
        · rw [ec']; exact h.inj _ _ hC hv _ _ hB (by rw [eC'] at hv'; exact hv') (by rw [eC'] at ep; exact ep)
        · exact h.inj _ _ hC hv _ _ hC' hv' ep
      · intro c C hC hv
        rcases set_cases _ hB hC with ⟨rfl, rfl⟩ | ⟨n, hC⟩
        · exact h.view c B hB hv
        · exact h.view _ _ hC hv
      · intro hh hl
        obtain ⟨c, C, q1, q2, q3⟩ := h.all hh hl
        by_cases ec : b = c
        · subst ec
          have : B = C := by rw [hB] at q1; exact Option.some.inj q1
          subst this
          exact ⟨b, _, List.getElem?_set_self (List.getElem?_eq_some_iff.mp hB).1, q2, q3⟩
        · exact ⟨c, C, by rw [List.getElem?_set_ne ec, q1], q2, q3⟩

theorem release_ok {s : St α} {g : GC α} {e : Nat → Nat} (b : Option Nat) (h : Inv s g (plusOne e b)) (hb : ∀ c, b = some c → c < s.blobs.length) :
    ∃ s', release s b = .ok s' ∧ Inv s' g e := by
  cases b with
  | none =>
    refine ⟨s, rfl, ?_⟩
    have : plusOne e none = e := by funext c; simp [plusOne]
    rw [this] at h
    exact h
  | some b =>
    have hl := hb b rfl
    obtain ⟨B, hB⟩ : ∃ B : Blob, s.blobs[b]? = some B := ⟨_, List.getElem?_eq_getElem hl⟩
    have hc := h.cnt b B hB
    simp only [plusOne, if_true] at hc
    have hn : B.cnt ≠ 0 := by omega
    have hcnt : ∀ (c : Nat) (C : Blob), (s.blobs.set b { B with cnt := B.cnt - 1 })[c]? = some C → C.cnt = s.vars.countP (refs c) + e c := by
      intro c C hC
      rcases set_cases _ hB hC with ⟨rfl, rfl⟩ | ⟨n, hC⟩
      · show B.cnt - 1 = _
        omega
      · rw [h.cnt _ _ hC]
        simp only [plusOne, Option.some.injEq]
        rw [if_neg (fun x => n x.symm)]; rfl
    have hinj : ∀ (c : Nat) (C : Blob), (s.blobs.set b { B with cnt := B.cnt - 1 })[c]? = some C → C.isView = false → ∀ (c' : Nat) (C' : Blob),
        (s.blobs.set b { B with cnt := B.cnt - 1 })[c']? = some C' → C'.isView = false → C.ptr = C'.ptr → c = c' := by
      intro c C hC hv c' C' hC' hv' ep
      rcases set_cases _ hB hC with ⟨ec, eC⟩ | ⟨n, hC⟩ <;> rcases set_cases _ hB hC' with ⟨ec', eC'⟩ | ⟨n', hC'⟩
      · rw [ec, ec']
      · rw [ec]; exact h.inj _ _ hB (by rw [eC] at hv; exact hv) _ _ hC' hv' (by rw [eC] at ep; exact ep)
      · rw [ec']; exact h.inj _ _ hC hv _ _ hB (by rw [eC'] at hv'; exact hv') (by rw [eC'] at ep; exact ep)
      · exact h.inj _ _ hC hv _ _ hC' hv' ep
    have hview : ∀ (c : Nat) (C : Blob), (s.blobs.set b { B with cnt := B.cnt - 1 })[c]? = some C → C.isView = true → ∃ a o, C.ptr = .ext a o := by
      intro c C hC hv
      rcases set_cases _ hB hC with ⟨rfl, rfl⟩ | ⟨n, hC⟩
      · exact h.view c B hB hv
      · exact h.view _ _ hC hv
    have hall : ∀ hh : Nat, hh < s.heap.length → ∃ (c : Nat) (C : Blob), (s.blobs.set b { B with cnt := B.cnt - 1 })[c]? = some C ∧ C.isView = false ∧ C.ptr = .own hh 0 := by
      intro hh hlt
      obtain ⟨c, C, q1, q2, q3⟩ := h.all hh hlt
      by_cases ec : b = c
      · subst ec
        have : B = C := by rw [hB] at q1; exact Option.some.inj q1
        subst this
        exact ⟨b, _, List.getElem?_set_self (List.getElem?_eq_some_iff.mp hB).1, q2, q3⟩
      · exact ⟨c, C, by rw [List.getElem?_set_ne ec, q1], q2, q3⟩
    have hvars := forall₂_mono h.vars fun x y r => r.mono (set_ptr _ _ _ (B.cnt - 1) hB)
    by_cases last : B.cnt = 1 ∧ B.isView = false
    · obtain ⟨hh, q1, q2, q3, q4⟩ := h.own b B hB last.2
      obtain ⟨c, w1, w2⟩ := q3 (by omega)
      refine ⟨{ s with blobs := s.blobs.set b { B with cnt := B.cnt - 1 }, heap := s.heap.set hh none }, ?_, hvars, hcnt, h.ext,
        by simp only [List.length_set]; exact h.len, ?_, hinj, hview, ?_⟩
      · unfold release
        simp only [hB]
        rw [if_neg hn, if_pos last]
        unfold free
        rw [q1]
        simp only [w1]
        rfl
      · intro c' C hC hv
        rcases set_cases _ hB hC with ⟨rfl, rfl⟩ | ⟨n, hC⟩
        · refine ⟨hh, q1, by simpa using q2, fun z => ?_, fun _ => List.getElem?_set_self q2⟩
          have z : 0 < B.cnt - 1 := z
          omega
        · obtain ⟨h', r1, r2, r3, r4⟩ := h.own _ _ hC hv
          have ne : hh ≠ h' := fun x => n (h.inj _ _ hC hv _ _ hB last.2 (by rw [r1, q1, x]))
          refine ⟨h', r1, by simpa using r2, ?_, ?_⟩
          · simp only [List.getElem?_set_ne ne]; exact r3
          · simp only [List.getElem?_set_ne ne]; exact r4
      · intro h' hl'
        exact hall h' (by simpa using hl')
    · refine ⟨{ s with blobs := s.blobs.set b { B with cnt := B.cnt - 1 } }, ?_, hvars, hcnt, h.ext, h.len, ?_, hinj, hview, hall⟩
      · unfold release
        simp only [hB]
        rw [if_neg hn, if_neg last]
      · intro c C hC hv
        rcases set_cases _ hB hC with ⟨rfl, rfl⟩ | ⟨n, hC⟩
        · obtain ⟨hh, q1, q2, q3, q4⟩ := h.own _ _ hB hv
          refine ⟨hh, q1, q2, fun _ => q3 (by omega), fun z => ?_⟩
          have z : B.cnt - 1 = 0 := z
          exact absurd ⟨by omega, hv⟩ last
        · exact h.own _ _ hC hv

/-- The reference of the object `v`. -/
theorem obj_ok {s : St α} {g : GC α} {e : Nat → Nat} (h : Inv s g e) (v : Nat) :
    (obj s v = .ub ∧ g.ptr v = .ub) ∨ ∃ r p, obj s v = .ok r ∧ g.ptr v = .ok p ∧ s.vars[v]? = some (some r) ∧ VarRel s.blobs (some r) (some p) ∧
      ∀ c, r.1 = some c → ∃ B : Blob, s.blobs[c]? = some B ∧ 0 < B.cnt := by
  unfold obj GC.ptr
  rcases forall₂_get h.vars v with ⟨e1, e2⟩ | ⟨x, y, e1, e2, hr⟩
  · left; simp [e1, e2]
  · match x, y, hr with
    | none, none, _ => left; simp [e1, e2]
    | some (none, o), some none, hr => right; exact ⟨(none, o), none, by simp [e1], by simp [e2], e1, hr, fun c hc => by cases hc⟩
    | some (some b, o), some (some p), hr =>
      right
      refine ⟨(some b, o), some p, by simp [e1], by simp [e2], e1, hr, ?_⟩
      rintro c hc
      obtain rfl : b = c := by simpa using hc
      obtain ⟨B, q1, q2⟩ := hr
      refine ⟨B, q1, ?_⟩
      rw [h.cnt _ _ q1]
      have := countP_pos (refs b) s.vars v _ e1 (by simp [refs])
      omega

theorem plusOne_refs (e : Nat → Nat) (r : Option Nat × Nat) (c : Nat) : plusOne e r.1 c = e c + if refs c (some r) = true then 1 else 0 := by
  obtain ⟨b, o⟩ := r
  cases b with
  | none => simp [plusOne, refs]
  | some b => simp [plusOne, refs]

/-- The reference held outside becomes that of a new object. -/
theorem append_var {s : St α} {g : GC α} {e : Nat → Nat} (r : Option Nat × Nat) (p : Option Ptr) (h : Inv s g (plusOne e r.1)) (hr : VarRel s.blobs (some r) (some p)) :
    Inv { s with vars := s.vars ++ [some r] } { g with vars := g.vars ++ [some p] } e := by
  refine ⟨forall₂_snoc h.vars hr, ?_, h.ext, h.len, h.own, h.inj, h.view, h.all⟩
  intro b B hB
  have := h.cnt b B hB
  rw [plusOne_refs] at this
  simp only [List.countP_append, List.countP_singleton]
  omega

/-- The object `v` is given the reference held outside; its own is now outside. -/
theorem set_var {s : St α} {g : GC α} {e : Nat → Nat} (v : Nat) (r r' : Option Nat × Nat) (p : Option Ptr) (h : Inv s g (plusOne e r'.1))
    (hv : s.vars[v]? = some (some r)) (hr : VarRel s.blobs (some r') (some p)) :
    Inv { s with vars := s.vars.set v (some r') } { g with vars := g.vars.set v (some p) } (plusOne e r.1) := by
  refine ⟨forall₂_set h.vars v hr, ?_, h.ext, h.len, h.own, h.inj, h.view, h.all⟩
  intro b B hB
  have h1 := h.cnt b B hB
  rw [plusOne_refs] at h1 ⊢
  have h2 := countP_set (refs b) s.vars v (some r) (some r') hv
  show B.cnt = (s.vars.set v (some r')).countP (refs b) + _
  omega

theorem del_var {s : St α} {g : GC α} {e : Nat → Nat} (v : Nat) (r : Option Nat × Nat) (h : Inv s g e) (hv : s.vars[v]? = some (some r)) :
    Inv { s with vars := s.vars.set v none } { g with vars := g.vars.set v none } (plusOne e r.1) := by
  refine ⟨forall₂_set h.vars v trivial, ?_, h.ext, h.len, h.own, h.inj, h.view, h.all⟩
  intro b B hB
  have h1 := h.cnt b B hB
  rw [plusOne_refs]
  have h2 := countP_set (refs b) s.vars v (some r) none hv
  have h3 : refs b none = false := rfl
  simp only [h3] at h2
  show B.cnt = (s.vars.set v none).countP (refs b) + _
  simp at h2
  omega

theorem shift_move (i : Nat) (p : Ptr) (o : Nat) : GC.shift i (move p o) = move p (o + i) := by
  cases p <;> simp [GC.shift, move, Nat.add_assoc]

theorem alloc_inv {s : St α} {g : GC α} (h : Inv s g fun _ => 0) (c : List (Option α)) :
    Inv (alloc s c) { g with heap := g.heap ++ [c], vars := g.vars ++ [some (some (.own g.heap.length 0))] } fun _ => 0 := by
  have hold : ∀ (b : Nat) (B : Blob), s.blobs[b]? = some B → (s.blobs ++ [⟨1, false, .own s.heap.length 0⟩])[b]? = some B := by
    intro b B hB
    rw [List.getElem?_append_left (List.getElem?_eq_some_iff.mp hB).1, hB]
  have hcase : ∀ {b : Nat} {B : Blob}, (s.blobs ++ [⟨1, false, .own s.heap.length 0⟩])[b]? = some B →
      s.blobs[b]? = some B ∨ (b = s.blobs.length ∧ B = ⟨1, false, .own s.heap.length 0⟩) := by
    intro b B hB
    by_cases c : b < s.blobs.length
    · rw [List.getElem?_append_left c] at hB; exact Or.inl hB
    · rw [List.getElem?_append_right (by omega)] at hB
      have : b - s.blobs.length = 0 := by
        by_contra n
        rw [List.getElem?_eq_none (by simp; omega)] at hB
        cases hB
      rw [this] at hB
      exact Or.inr ⟨by omega, (Option.some.inj hB).symm⟩
  have hno : s.vars.countP (refs s.blobs.length) = 0 := by
    rw [List.countP_eq_zero]
    intro x hx hp
    obtain ⟨i, hi⟩ := List.mem_iff_getElem?.mp hx
    rcases forall₂_get h.vars i with ⟨e1, _⟩ | ⟨x', y, e1, e2, hr⟩
    · rw [hi] at e1; cases e1
    · rw [hi] at e1
      cases e1
      match x, y, hr with
      | some (some b, o), some (some p), ⟨B, q1, _⟩ =>
        have : b = s.blobs.length := by simpa [refs] using hp
        have := (List.getElem?_eq_some_iff.mp q1).1
        omega
      | none, _, _ => simp [refs] at hp
      | some (none, _), _, _ => simp [refs] at hp
  refine ⟨?_, ?_, h.ext, ?_, ?_, ?_, ?_, ?_⟩
  · refine forall₂_snoc (forall₂_mono h.vars fun x y r => r.mono fun b B hB => ⟨B, hold b B hB, rfl⟩) ?_
    refine ⟨⟨1, false, .own s.heap.length 0⟩, ?_, ?_⟩
    · show (s.blobs ++ _)[s.blobs.length]? = _
      rw [List.getElem?_append_right le_rfl]; simp
    · simp [move, h.len]
  · intro b B hB
    show B.cnt = List.countP (refs b) (s.vars ++ [some (some s.blobs.length, 0)]) + 0
    rw [List.countP_append, List.countP_singleton]
    rcases hcase hB with hB | ⟨rfl, rfl⟩
    · have := (List.getElem?_eq_some_iff.mp hB).1
      rw [h.cnt _ _ hB]
      have : refs b (some (some s.blobs.length, 0)) = false := by simp [refs]; omega
      simp [this]
    · simp [hno, refs]
  · simp [alloc, h.len]
  · intro b B hB hv
    rcases hcase hB with hB | ⟨rfl, rfl⟩
    · obtain ⟨hh, q1, q2, q3, q4⟩ := h.own _ _ hB hv
      refine ⟨hh, q1, by simp [alloc]; omega, ?_, ?_⟩
      · intro z
        obtain ⟨c', w1, w2⟩ := q3 z
        refine ⟨c', ?_, ?_⟩
        · show (s.heap ++ _)[hh]? = _
          rw [List.getElem?_append_left q2, w1]
        · show (g.heap ++ _)[hh]? = _
          rw [List.getElem?_append_left (by rw [← h.len]; exact q2), w2]
      · intro z
        show (s.heap ++ _)[hh]? = _
        rw [List.getElem?_append_left q2, q4 z]
    · refine ⟨s.heap.length, rfl, by simp [alloc], fun _ => ⟨c, ?_, ?_⟩, fun z => by cases z⟩
      · show (s.heap ++ _)[_]? = _
        rw [List.getElem?_append_right le_rfl]; simp
      · show (g.heap ++ _)[_]? = _
        rw [h.len, List.getElem?_append_right le_rfl]; simp
  · intro b B hB hv b' B' hB' hv' ep
    rcases hcase hB with hB | ⟨rfl, rfl⟩ <;> rcases hcase hB' with hB' | ⟨rfl, rfl⟩
    · exact h.inj _ _ hB hv _ _ hB' hv' ep
    · obtain ⟨hh, q1, q2, _⟩ := h.own _ _ hB hv
      rw [q1] at ep
      cases ep
      omega
    · obtain ⟨hh, q1, q2, _⟩ := h.own _ _ hB' hv'
      rw [q1] at ep
      cases ep
      omega
    · rfl
  · intro b B hB hv
    rcases hcase hB with hB | ⟨rfl, rfl⟩
    · exact h.view _ _ hB hv
    · cases hv
  · intro hh hl
    by_cases c : hh < s.heap.length
    · obtain ⟨b, B, q1, q2, q3⟩ := h.all hh c
      exact ⟨b, B, hold b B q1, q2, q3⟩
    · refine ⟨s.blobs.length, ⟨1, false, .own s.heap.length 0⟩, ?_, rfl, ?_⟩
      · show (s.blobs ++ _)[_]? = _
        rw [List.getElem?_append_right le_rfl]; simp
      · have : hh = s.heap.length := by simp [alloc] at hl; omega
        rw [this]

theorem wrap_inv {s : St α} {g : GC α} (h : Inv s g fun _ => 0) (a o : Nat) :
    Inv (wrap s (.ext a o)) { g with vars := g.vars ++ [some (some (.ext a o))] } fun _ => 0 := by
  have hold : ∀ (b : Nat) (B : Blob), s.blobs[b]? = some B → (s.blobs ++ [⟨1, true, .ext a o⟩])[b]? = some B := by
    intro b B hB
    rw [List.getElem?_append_left (List.getElem?_eq_some_iff.mp hB).1, hB]
  have hcase : ∀ {b : Nat} {B : Blob}, (s.blobs ++ [⟨1, true, .ext a o⟩])[b]? = some B →
      s.blobs[b]? = some B ∨ (b = s.blobs.length ∧ B = ⟨1, true, .ext a o⟩) := by
    intro b B hB
    by_cases c : b < s.blobs.length
    · rw [List.getElem?_append_left c] at hB; exact Or.inl hB
    · rw [List.getElem?_append_right (by omega)] at hB
      have : b - s.blobs.length = 0 := by
        by_contra n
        rw [List.getElem?_eq_none (by simp; omega)] at hB
        cases hB
      rw [this] at hB
      exact Or.inr ⟨by omega, (Option.some.inj hB).symm⟩
  have hno : s.vars.countP (refs s.blobs.length) = 0 := by
    rw [List.countP_eq_zero]
    intro x hx hp
    obtain ⟨i, hi⟩ := List.mem_iff_getElem?.mp hx
    rcases forall₂_get h.vars i with ⟨e1, _⟩ | ⟨x', y, e1, e2, hr⟩
    · rw [hi] at e1; cases e1
    · rw [hi] at e1
      cases e1
      match x, y, hr with
      | some (some b, o), some (some p), ⟨B, q1, _⟩ =>
        have : b = s.blobs.length := by simpa [refs] using hp
        have := (List.getElem?_eq_some_iff.mp q1).1
        omega
      | none, _, _ => simp [refs] at hp
      | some (none, _), _, _ => simp [refs] at hp
  refine ⟨?_, ?_, h.ext, h.len, ?_, ?_, ?_, ?_⟩
  · refine forall₂_snoc (forall₂_mono h.vars fun x y r => r.mono fun b B hB => ⟨B, hold b B hB, rfl⟩) ?_
    refine ⟨⟨1, true, .ext a o⟩, ?_, rfl⟩
    show (s.blobs ++ _)[s.blobs.length]? = _
    rw [List.getElem?_append_right le_rfl]; simp
  · intro b B hB
    show B.cnt = List.countP (refs b) (s.vars ++ [some (some s.blobs.length, 0)]) + 0
    rw [List.countP_append, List.countP_singleton]
    rcases hcase hB with hB | ⟨rfl, rfl⟩
    · have := (List.getElem?_eq_some_iff.mp hB).1
      rw [h.cnt _ _ hB]
      have : refs b (some (some s.blobs.length, 0)) = false := by simp [refs]; omega
      simp [this]
    · simp [hno, refs]
  · intro b B hB hv
    rcases hcase hB with hB | ⟨rfl, rfl⟩
    · exact h.own _ _ hB hv
    · cases hv
  · intro b B hB hv b' B' hB' hv' ep
    rcases hcase hB with hB | ⟨rfl, rfl⟩ <;> rcases hcase hB' with hB' | ⟨rfl, rfl⟩
    · exact h.inj _ _ hB hv _ _ hB' hv' ep
    · cases hv'
    · cases hv
    · rfl
  · intro b B hB hv
    rcases hcase hB with hB | ⟨rfl, rfl⟩
    · exact h.view _ _ hB hv
    · exact ⟨a, o, rfl⟩
  · intro hh hl
    obtain ⟨b, B, q1, q2, q3⟩ := h.all hh hl
    exact ⟨b, B, hold b B q1, q2, q3⟩

/-- Where an object points. -/
theorem address_ok {s : St α} {g : GC α} {e : Nat → Nat} (h : Inv s g e) (v i : Nat) :
    (address s v i = .ub ∧ (g.ptr v = .ub ∨ g.ptr v = .ok none)) ∨
    ∃ (b : Nat) (B : Blob) (o : Nat), address s v i = .ok (move B.ptr (i + o)) ∧ g.ptr v = .ok (some (move B.ptr o)) ∧ s.blobs[b]? = some B ∧ 0 < B.cnt := by
  unfold address
  rcases obj_ok h v with ⟨e1, e2⟩ | ⟨r, p, e1, e2, _, hr, hc⟩
  · left; rw [e1]; exact ⟨rfl, Or.inl e2⟩
  · obtain ⟨b, o⟩ := r
    rw [e1, Res.ok_bind]
    cases b with
    | none =>
      left
      match p, hr with
      | none, _ => exact ⟨rfl, Or.inr e2⟩
    | some b =>
      right
      match p, hr with
      | some p, ⟨B, q1, q2⟩ =>
        obtain ⟨B', w1, w2⟩ := hc b rfl
        have : B' = B := by rw [q1] at w1; exact (Option.some.inj w1).symm
        subst this
        refine ⟨b, B', o, ?_, by rw [e2, q2], q1, w2⟩
        simp only [q1]
        rw [if_neg (by omega)]

theorem load_ok {s : St α} {g : GC α} {e : Nat → Nat} (h : Inv s g e) {b : Nat} {B : Blob} (hB : s.blobs[b]? = some B) (hc : 0 < B.cnt) (i o : Nat) :
    load s (move B.ptr (i + o)) = (match move B.ptr o with
      | .own h o => GC.cellOf g.heap h (o + i)
      | .ext a o => GC.cellOf g.ext a (o + i)) := by
  cases hv : B.isView with
  | false =>
    obtain ⟨hh, q1, q2, q3, q4⟩ := h.own b B hB hv
    obtain ⟨c, w1, w2⟩ := q3 hc
    rw [q1]
    simp only [move, load, loadFrom, GC.cellOf, w1, w2, Nat.zero_add, Nat.add_comm i o]
    rfl
  | true =>
    obtain ⟨a, o', q1⟩ := h.view b B hB hv
    rw [q1]
    simp only [move, load, loadFrom, GC.cellOf, h.ext, List.getElem?_map]
    rw [show o' + (i + o) = o' + o + i by omega]
    cases g.ext[a]? with
    | none => rfl
    | some c => rfl

theorem store_ok {s : St α} {g : GC α} {e : Nat → Nat} (h : Inv s g e) {b : Nat} {B : Blob} (hB : s.blobs[b]? = some B) (hc : 0 < B.cnt) (i o : Nat) (x : α) :
    (store s (move B.ptr (i + o)) x = .ub ∧ (match move B.ptr o with
      | .own h o => GC.put g.heap h (o + i) x
      | .ext a o => GC.put g.ext a (o + i) x) = .ub) ∨
    ∃ s' g', store s (move B.ptr (i + o)) x = .ok s' ∧ (match move B.ptr o with
      | .own h o => do
        let l ← GC.put g.heap h (o + i) x
        Res.ok ({ g with heap := l }, (none : Option α))
      | .ext a o => do
        let l ← GC.put g.ext a (o + i) x
        Res.ok ({ g with ext := l }, none)) = .ok (g', none) ∧ Inv s' g' e := by
  cases hv : B.isView with
  | false =>
    obtain ⟨hh, q1, q2, q3, q4⟩ := h.own b B hB hv
    obtain ⟨c, w1, w2⟩ := q3 hc
    rw [q1]
    simp only [move, store, storeTo, GC.put, w1, w2, Nat.zero_add, Nat.add_comm i o]
    by_cases hl : o + i < c.length
    · right
      refine ⟨{ s with heap := s.heap.set hh (some (c.set (o + i) (some x))) }, { g with heap := g.heap.set hh (c.set (o + i) (some x)) }, ?_, ?_,
        h.vars, h.cnt, h.ext, by simp only [List.length_set]; exact h.len, ?_, h.inj, h.view, by simpa using h.all⟩
      · rw [if_pos hl]; rfl
      · rw [if_pos hl]; rfl
      · intro b' B' hB' hv'
        obtain ⟨h', r1, r2, r3, r4⟩ := h.own b' B' hB' hv'
        refine ⟨h', r1, by simpa using r2, ?_, ?_⟩
        · intro z
          obtain ⟨c', t1, t2⟩ := r3 z
          by_cases eh : hh = h'
          · subst eh
            exact ⟨c.set (o + i) (some x), List.getElem?_set_self q2, List.getElem?_set_self (by rw [← h.len]; exact q2)⟩
          · exact ⟨c', by simp only [List.getElem?_set_ne eh]; exact t1, by simp only [List.getElem?_set_ne eh]; exact t2⟩
        · intro z
          have eh : hh ≠ h' := by
            rintro rfl
            rw [r4 z] at w1
            cases w1
          simp only [List.getElem?_set_ne eh]
          exact r4 z
    · left
      rw [if_neg hl, if_neg hl]
      exact ⟨rfl, rfl⟩
  | true =>
    obtain ⟨a, o', q1⟩ := h.view b B hB hv
    rw [q1]
    simp only [move, store, storeTo, GC.put, h.ext, List.getElem?_map]
    rw [show o' + (i + o) = o' + o + i by omega]
    cases hg : g.ext[a]? with
    | none => left; exact ⟨rfl, rfl⟩
    | some c =>
      simp only [Option.map_some]
      by_cases hl : o' + o + i < c.length
      · right
        refine ⟨{ s with ext := s.ext.set a (some (c.set (o' + o + i) (some x))) }, { g with ext := g.ext.set a (c.set (o' + o + i) (some x)) }, ?_, ?_,
          h.vars, h.cnt, by simp only [h.ext, List.map_set], h.len, h.own, h.inj, h.view, h.all⟩
        · rw [if_pos hl, h.ext]; rfl
        · rw [if_pos hl]; rfl
      · left
        rw [if_neg hl, if_neg hl]
        exact ⟨rfl, rfl⟩

/-- One command: both machines fail, or both go on and have read the same. -/
theorem step_ok {s : St α} {g : GC α} (h : Inv s g fun _ => 0) (c : Cmd α) (hp : Plain c) :
    (step s c = .ub ∧ g.step c = .ub) ∨ ∃ s' g' x, step s c = .ok (s', x) ∧ g.step c = .ok (g', x) ∧ Inv s' g' fun _ => 0 := by
  cases c with
  | fresh n => right; exact ⟨_, _, _, rfl, rfl, alloc_inv h _⟩
  | zeroed n z =>
    right
    refine ⟨_, _, _, rfl, rfl, ?_⟩
    have : (List.range (max n 1)).map (fun i => if i < n then some z else none) = List.replicate n (some z) ++ List.replicate (max n 1 - n) none := by
      apply List.ext_getElem?
      intro i
      rw [List.getElem?_map]
      by_cases c1 : i < n
      · rw [List.getElem?_append_left (by simpa using c1), List.getElem?_range (by omega), List.getElem?_replicate, if_pos c1]
        simp [c1]
      · rw [List.getElem?_append_right (by simpa using c1), List.length_replicate, List.getElem?_replicate]
        by_cases c2 : i < max n 1
        · rw [List.getElem?_range c2, if_pos (by omega)]
          simp [c1]
        · rw [List.getElem?_eq_none (by rw [List.length_range]; omega), if_neg (by omega)]
          rfl
    rw [this]
    exact alloc_inv h _
  | empty =>
    right
    refine ⟨_, _, _, rfl, rfl, ?_⟩
    refine append_var (none, 0) none ?_ trivial
    have : plusOne (fun _ => 0) none = fun _ => 0 := by funext c; simp [plusOne]
    rw [this]
    exact h
  | copy v =>
    simp only [step, GC.step]
    rcases obj_ok h v with ⟨e1, e2⟩ | ⟨r, p, e1, e2, hv, hr, hc⟩
    · left; rw [e1, e2]; exact ⟨rfl, rfl⟩
    · right
      obtain ⟨s', w1, w2, w3, w4⟩ := retain_ok h r.1 hc
      refine ⟨_, _, none, ?_, ?_, append_var r p w2 (hr.mono w4)⟩
      · simp only [e1, Res.ok_bind, w1]
      · simp only [e2, Res.ok_bind]
  | plus v i =>
    simp only [step, GC.step]
    rcases obj_ok h v with ⟨e1, e2⟩ | ⟨r, p, e1, e2, hv, hr, hc⟩
    · left; rw [e1, e2]; exact ⟨rfl, rfl⟩
    · right
      obtain ⟨s', w1, w2, w3, w4⟩ := retain_ok h r.1 hc
      refine ⟨_, _, none, ?_, ?_, append_var (r.1, r.2 + i) (p.map (GC.shift i)) w2 ?_⟩
      · simp only [e1, Res.ok_bind, w1]
      · simp only [e2, Res.ok_bind]
      · obtain ⟨b, o⟩ := r
        match b, p, hr with
        | none, none, _ => trivial
        | some b, some p, ⟨B, q1, q2⟩ =>
          obtain ⟨B', t1, t2⟩ := w4 b B q1
          refine ⟨B', t1, ?_⟩
          rw [q2, shift_move, t2]
  | wrapExt a o =>
    simp only [step, GC.step]
    simp only [h.ext, List.getElem?_map]
    cases g.ext[a]? with
    | none => left; exact ⟨rfl, rfl⟩
    | some c =>
      simp only [Option.map_some]
      by_cases hl : o ≤ c.length
      · right
        rw [if_pos hl, if_pos hl]
        exact ⟨_, _, none, rfl, rfl, wrap_inv h a o⟩
      · left
        rw [if_neg hl, if_neg hl]
        exact ⟨rfl, rfl⟩
  | wrapOwn v => exact absurd hp id
  | assign v w =>
    simp only [step, GC.step]
    rcases obj_ok h v with ⟨e1, e2⟩ | ⟨r, p, e1, e2, hv, hr, hc⟩
    · left; rw [e1, e2]; exact ⟨rfl, rfl⟩
    · rcases obj_ok h w with ⟨e1', e2'⟩ | ⟨r', p', e1', e2', hv', hr', hc'⟩
      · left; rw [e1, e2, Res.ok_bind, Res.ok_bind, e1', e2']; exact ⟨rfl, rfl⟩
      · right
        obtain ⟨s', w1, w2, w3, w4⟩ := retain_ok h r'.1 hc'
        have h3 := set_var v r r' p' w2 (by rw [w3]; exact hv) (hr'.mono w4)
        obtain ⟨s'', t1, t2⟩ := release_ok r.1 h3 (by
          intro c ec
          obtain ⟨B, hB, _⟩ := hc c ec
          obtain ⟨B', hB', _⟩ := w4 c B hB
          exact (List.getElem?_eq_some_iff.mp hB').1)
        refine ⟨s'', _, none, ?_, ?_, t2⟩
        · simp only [e1, e1', Res.ok_bind, w1]
          rw [t1]; rfl
        · simp only [e2, e2', Res.ok_bind]
  | destroy v =>
    simp only [step, GC.step]
    rcases obj_ok h v with ⟨e1, e2⟩ | ⟨r, p, e1, e2, hv, hr, hc⟩
    · left; rw [e1, e2]; exact ⟨rfl, rfl⟩
    · right
      obtain ⟨s'', t1, t2⟩ := release_ok r.1 (del_var v r h hv) (by
          intro c ec
          obtain ⟨B, hB, _⟩ := hc c ec
          exact (List.getElem?_eq_some_iff.mp hB).1)
      refine ⟨s'', _, none, ?_, ?_, t2⟩
      · simp only [e1, Res.ok_bind]
        rw [t1]; rfl
      · simp only [e2, Res.ok_bind]
  | read v i =>
    simp only [step, GC.step]
    rcases address_ok h v i with ⟨e1, e2⟩ | ⟨b, B, o, e1, e2, hB, hc⟩
    · left
      rw [e1]
      refine ⟨rfl, ?_⟩
      rcases e2 with e2 | e2 <;> rw [e2] <;> rfl
    · have hl := load_ok h hB hc i o
      rw [e1, Res.ok_bind, e2, Res.ok_bind, hl]
      cases move B.ptr o with
      | own hh o' =>
        simp only
        cases hx : GC.cellOf g.heap hh (o' + i) with
        | ok x => right; exact ⟨s, g, some x, rfl, rfl, h⟩
        | ub => left; exact ⟨rfl, rfl⟩
        | throw =>
          exfalso
          unfold GC.cellOf at hx
          split at hx
          · cases hx
          · split at hx <;> cases hx
      | ext a o' =>
        simp only
        cases hx : GC.cellOf g.ext a (o' + i) with
        | ok x => right; exact ⟨s, g, some x, rfl, rfl, h⟩
        | ub => left; exact ⟨rfl, rfl⟩
        | throw =>
          exfalso
          unfold GC.cellOf at hx
          split at hx
          · cases hx
          · split at hx <;> cases hx
  | write v i x =>
    simp only [step, GC.step]
    rcases address_ok h v i with ⟨e1, e2⟩ | ⟨b, B, o, e1, e2, hB, hc⟩
    · left
      rw [e1]
      refine ⟨rfl, ?_⟩
      rcases e2 with e2 | e2 <;> rw [e2] <;> rfl
    · rw [e1, Res.ok_bind, e2, Res.ok_bind]
      rcases store_ok h hB hc i o x with ⟨t1, t2⟩ | ⟨s', g', t1, t2, t3⟩
      · left
        rw [t1]
        refine ⟨rfl, ?_⟩
        revert t2
        cases move B.ptr o with
        | own hh o' => intro t2; simp only at t2 ⊢; rw [t2]; rfl
        | ext a o' => intro t2; simp only at t2 ⊢; rw [t2]; rfl
      · right
        refine ⟨s', g', none, by rw [t1]; rfl, ?_, t3⟩
        revert t2
        cases move B.ptr o with
        | own hh o' => exact id
        | ext a o' => exact id
  | extNew c =>
    right
    refine ⟨_, _, none, rfl, rfl, h.vars, h.cnt, ?_, h.len, h.own, h.inj, h.view, h.all⟩
    simp [h.ext]
  | extFree a => exact absurd hp id

theorem run_ok : ∀ (cs : List (Cmd α)) {s : St α} {g : GC α}, Inv s g (fun _ => 0) → (∀ c ∈ cs, Plain c) →
    (run s cs = .ub ∧ g.run cs = .ub) ∨ ∃ s' g' xs, run s cs = .ok (s', xs) ∧ g.run cs = .ok (g', xs) ∧ Inv s' g' fun _ => 0 := by
  intro cs
  induction cs with
  | nil => intro s g h _; right; exact ⟨s, g, [], rfl, rfl, h⟩
  | cons c cs ih =>
    intro s g h hp
    unfold run GC.run
    rcases step_ok h c (hp c (by simp)) with ⟨e1, e2⟩ | ⟨s', g', x, e1, e2, h'⟩
    · left; rw [e1, e2]; exact ⟨rfl, rfl⟩
    · rw [e1, e2, Res.ok_bind, Res.ok_bind]
      rcases ih h' fun c hc => hp c (by simp [hc]) with ⟨t1, t2⟩ | ⟨s'', g'', xs, t1, t2, h''⟩
      · left; rw [t1, t2]; exact ⟨rfl, rfl⟩
      · right
        exact ⟨s'', g'', x.toList ++ xs, by rw [t1]; rfl, by rw [t2]; rfl, h''⟩

theorem init_inv : Inv (init : St α) GC.init fun _ => 0 :=
  ⟨.nil, fun b B h => by simp [init] at h, rfl, rfl, fun b B h => by simp [init] at h, fun b B h => by simp [init] at h,
    fun b B h => by simp [init] at h, fun h hl => by simp [init] at hl⟩

end Mem

end Cnine
