import Verif.Lemmas.Mem

/-!
# Properties of shared arrays (include/MemArr.hpp, include/MemBlob.hpp, include/MemoryManager.hpp)
-/

namespace Cnine

variable {α : Type}

namespace Mem

/-! ### Lifetime -/

/-- **C320.** A program that makes, copies, moves along, assigns and destroys `MemArr` objects in any order, and reads and writes through them, does what
it would do if no memory were ever freed: both read the same values, or both are undefined (a null object, a destroyed object, a cell outside of the array
or never written).  So no array is used after it was freed, and none is freed twice. -/
theorem C320_refines (cs : List (Cmd α)) (h : ∀ c ∈ cs, Plain c) :
    (run init cs = .ub ∧ GC.run GC.init cs = .ub) ∨ ∃ s g xs, run init cs = .ok (s, xs) ∧ GC.run GC.init cs = .ok (g, xs) := by
  rcases run_ok cs init_inv h with e | ⟨s, g, xs, e1, e2, _⟩
  · exact Or.inl e
  · exact Or.inr ⟨s, g, xs, e1, e2⟩

example : ∃ s g, run init [.fresh 3, .write 0 2 (7 : Int), .plus 0 2, .destroy 0, .read 1 0, .zeroed 2 0, .assign 1 2, .read 1 1, .assign 1 1, .read 2 0] =
      .ok (s, [7, 0, 0]) ∧
    GC.run GC.init [.fresh 3, .write 0 2 (7 : Int), .plus 0 2, .destroy 0, .read 1 0, .zeroed 2 0, .assign 1 2, .read 1 1, .assign 1 1, .read 2 0] = .ok (g, [7, 0, 0]) ∧
    s.heap = [none, some [some 0, some 0]] ∧ g.heap = [[none, none, some 7], [some 0, some 0]] := ⟨_, _, rfl, rfl, rfl, rfl⟩

/-- **C321.** At every point of such a program an array made by `MemArr` is in memory exactly while some object that has not been destroyed points into it.
While it is in memory it has the contents it would have if no memory were ever freed. -/
theorem C321_live (cs : List (Cmd α)) (h : ∀ c ∈ cs, Plain c) {s : St α} {xs : List α} (e : run init cs = .ok (s, xs)) :
    ∃ g, GC.run GC.init cs = .ok (g, xs) ∧ s.heap.length = g.heap.length ∧
      (∀ k : Nat, k < s.heap.length → ((∃ c, s.heap[k]? = some (some c)) ↔ ∃ v o : Nat, g.vars[v]? = some (some (some (.own k o))))) ∧
      ∀ (k : Nat) (c : List (Option α)), s.heap[k]? = some (some c) → g.heap[k]? = some c := by
  rcases run_ok cs init_inv h with ⟨e', _⟩ | ⟨s', g, xs', e1, e2, hi⟩
  · rw [e] at e'; cases e'
  · rw [e] at e1
    cases e1
    refine ⟨g, e2, hi.len, ?_, ?_⟩
    · intro k hk
      constructor
      · rintro ⟨c, hc⟩
        obtain ⟨b, B, q1, q2, q3⟩ := hi.all k hk
        obtain ⟨k', r1, r2, r3, r4⟩ := hi.own b B q1 q2
        have : k = k' := by rw [q3] at r1; cases r1; rfl
        subst this
        have hpos : 0 < B.cnt := by
          rcases Nat.eq_zero_or_pos B.cnt with z | z
          · rw [r4 z] at hc; cases hc
          · exact z
        rw [hi.cnt b B q1, Nat.add_zero, List.countP_pos_iff] at hpos
        obtain ⟨x, hx, hp⟩ := hpos
        obtain ⟨v, hv⟩ := List.mem_iff_getElem?.mp hx
        rcases forall₂_get hi.vars v with ⟨t, _⟩ | ⟨x', y, t1, t2, hr⟩
        · rw [hv] at t; cases t
        · rw [hv] at t1
          cases t1
          match x, y, hr with
          | some (some b', o), some (some p), ⟨B', u1, u2⟩ =>
            have : b' = b := by simpa [refs] using hp
            subst this
            have : B = B' := by rw [q1] at u1; exact Option.some.inj u1
            subst this
            exact ⟨v, o, by rw [t2, u2, q3]; simp [move]⟩
          | none, _, _ => simp [refs] at hp
          | some (none, _), _, _ => simp [refs] at hp
      · rintro ⟨v, o, hv⟩
        rcases forall₂_get hi.vars v with ⟨_, t⟩ | ⟨x, y, t1, t2, hr⟩
        · rw [hv] at t; cases t
        · rw [hv] at t2
          cases t2
          match x, hr with
          | some (some b, o'), ⟨B, u1, u2⟩ =>
            have hpos : 0 < B.cnt := by
              rw [hi.cnt b B u1]
              have := countP_pos (refs b) s.vars v _ t1 (by simp [refs])
              omega
            cases hv' : B.isView with
            | true =>
              obtain ⟨a, o'', w⟩ := hi.view b B u1 hv'
              rw [w] at u2
              cases u2
            | false =>
              obtain ⟨k', r1, r2, r3, r4⟩ := hi.own b B u1 hv'
              rw [r1] at u2
              cases u2
              obtain ⟨c, w1, _⟩ := r3 hpos
              exact ⟨c, w1⟩
    · intro k c hc
      have hk := (List.getElem?_eq_some_iff.mp hc).1
      obtain ⟨b, B, q1, q2, q3⟩ := hi.all k hk
      obtain ⟨k', r1, r2, r3, r4⟩ := hi.own b B q1 q2
      have : k = k' := by rw [q3] at r1; cases r1; rfl
      subst this
      rcases Nat.eq_zero_or_pos B.cnt with z | z
      · rw [r4 z] at hc; cases hc
      · obtain ⟨c', w1, w2⟩ := r3 z
        rw [w1] at hc
        cases hc
        exact w2

/-- When every object has been destroyed, every array has been freed. -/
theorem C321_no_leak (cs : List (Cmd α)) (h : ∀ c ∈ cs, Plain c) {s : St α} {g : GC α} {xs : List α} (e : run init cs = .ok (s, xs))
    (e' : GC.run GC.init cs = .ok (g, xs)) (hd : ∀ v ∈ g.vars, v = none) : ∀ k < s.heap.length, s.heap[k]? = some none := by
  obtain ⟨g', w1, w2, w3, _⟩ := C321_live cs h e
  rw [e'] at w1
  cases w1
  intro k hk
  cases hx : s.heap[k]? with
  | none => exact absurd hx (by rw [List.getElem?_eq_getElem hk]; exact fun z => by cases z)
  | some x =>
    cases x with
    | none => rfl
    | some c =>
      obtain ⟨v, o, hv⟩ := (w3 k hk).1 ⟨c, hx⟩
      exact absurd (hd _ (List.mem_of_getElem? hv)) (by simp)

example : ∃ s g, run init [.fresh 2, .copy 0, .plus 1 1, .destroy 0, .destroy 2, (.fresh 1 : Cmd Int), .destroy 1] = .ok (s, []) ∧
    GC.run GC.init [.fresh 2, .copy 0, .plus 1 1, .destroy 0, .destroy 2, (.fresh 1 : Cmd Int), .destroy 1] = .ok (g, []) ∧ s.heap = [none, some [none]] ∧
    g.vars = [none, none, none, some (some (.own 1 0))] := ⟨_, _, rfl, rfl, rfl, rfl⟩

/-! ### Arrays of others -/

theorem kept_refl {l : List (Option (List (Option α)))} {a : Nat} {c : List (Option α)} (h : l[a]? = some (some c)) :
    ∃ c', l[a]? = some (some c') ∧ c'.length = c.length := ⟨c, h, rfl⟩

theorem retain_ext {s s' : St α} {b : Option Nat} (h : retain s b = .ok s') : s'.ext = s.ext ∧ s'.blobs.map (fun B => (B.isView, B.ptr)) = s.blobs.map fun B => (B.isView, B.ptr) := by
  unfold retain at h
  split at h
  · cases h; exact ⟨rfl, rfl⟩
  · split at h
    · rename_i b _ B hB
      split at h
      · cases h
      · cases h
        refine ⟨rfl, ?_⟩
        show (s.blobs.set _ _).map _ = _
        rw [List.map_set]
        apply List.ext_getElem?
        intro i
        by_cases c : b = i
        · subst c
          rw [List.getElem?_set_self (by simpa using (List.getElem?_eq_some_iff.mp hB).1), List.getElem?_map, hB]
          rfl
        · rw [List.getElem?_set_ne c]
    · cases h

/-- All pointers of blobs that are no views are to their own arrays. -/
def Good (s : St α) : Prop := ∀ (b : Nat) (B : Blob), s.blobs[b]? = some B → B.isView = false → ∃ h o, B.ptr = .own h o

theorem Good.of_map {s s' : St α} (h : Good s) (e : s'.blobs.map (fun B => (B.isView, B.ptr)) = s.blobs.map fun B => (B.isView, B.ptr)) : Good s' := by
  intro b B hB hv
  have := congrArg (fun l => l[b]?) e
  simp only [List.getElem?_map, hB, Option.map_some] at this
  cases hC : s.blobs[b]? with
  | none => rw [hC] at this; cases this
  | some C =>
    rw [hC, Option.map_some] at this
    simp only [Option.some.injEq, Prod.mk.injEq] at this
    obtain ⟨hh, o, w⟩ := h b C hC (by rw [← this.1]; exact hv)
    exact ⟨hh, o, by rw [this.2]; exact w⟩

theorem release_ext {s s' : St α} {b : Option Nat} (hg : Good s) (h : release s b = .ok s') : s'.ext = s.ext ∧ Good s' := by
  unfold release at h
  split at h
  · cases h; exact ⟨rfl, hg⟩
  · split at h
    · rename_i b _ B hB
      have gm : ∀ n, Good { s with blobs := s.blobs.set b { B with cnt := n } } := by
        intro n c C hC hv
        rcases set_cases _ hB hC with ⟨_, rfl⟩ | ⟨_, hC⟩
        · exact hg b B hB hv
        · exact hg c C hC hv
      split at h
      · cases h
      · simp only at h
        split at h
        · rename_i hc
          obtain ⟨hh, o, w⟩ := hg b B hB hc.2
          rw [w] at h
          unfold free at h
          simp only at h
          split at h
          · split at h
            · cases h
              exact ⟨rfl, by rw [← w]; exact gm _⟩
            · cases h
          · cases h
        · cases h
          exact ⟨rfl, gm _⟩
    · cases h

theorem Good.snoc {s : St α} (h : Good s) {B : Blob} (hB : B.isView = false → ∃ k o, B.ptr = .own k o) : ∀ (b : Nat) (C : Blob), (s.blobs ++ [B])[b]? = some C → C.isView = false →
    ∃ k o, C.ptr = .own k o := by
  intro b C hC hv
  by_cases c : b < s.blobs.length
  · rw [List.getElem?_append_left c] at hC; exact h b C hC hv
  · rw [List.getElem?_append_right (by omega)] at hC
    have : b - s.blobs.length = 0 := by
      by_contra n
      rw [List.getElem?_eq_none (by simp; omega)] at hC
      cases hC
    rw [this] at hC
    cases hC
    exact hB hv

theorem step_ext {s s' : St α} {c : Cmd α} {x : Option α} (hg : Good s) (h : step s c = .ok (s', x)) : Good s' ∧
    ∀ (a : Nat) (cells : List (Option α)), s.ext[a]? = some (some cells) → c ≠ .extFree a → ∃ cells', s'.ext[a]? = some (some cells') ∧ cells'.length = cells.length ∧ ((∀ v i y, c ≠ .write v i y) → cells' = cells) := by
  cases c with
  | fresh n => cases h; exact ⟨(hg.snoc fun _ => ⟨_, _, rfl⟩), fun a cells ha hc => ⟨cells, ha, rfl, fun _ => rfl⟩⟩
  | zeroed n z => cases h; exact ⟨(hg.snoc fun _ => ⟨_, _, rfl⟩), fun a cells ha hc => ⟨cells, ha, rfl, fun _ => rfl⟩⟩
  | empty => cases h; exact ⟨hg, fun a cells ha hc => ⟨cells, ha, rfl, fun _ => rfl⟩⟩
  | copy v =>
    obtain ⟨r, _, h⟩ := Res.bind_eq_ok.mp h
    obtain ⟨t, ht, h⟩ := Res.bind_eq_ok.mp h
    cases h
    obtain ⟨e1, e2⟩ := retain_ext ht
    exact ⟨hg.of_map e2, fun a cells ha hc => ⟨cells, by show t.ext[a]? = _; rw [e1, ha], rfl, fun _ => rfl⟩⟩
  | plus v i =>
    obtain ⟨r, _, h⟩ := Res.bind_eq_ok.mp h
    obtain ⟨t, ht, h⟩ := Res.bind_eq_ok.mp h
    cases h
    obtain ⟨e1, e2⟩ := retain_ext ht
    exact ⟨hg.of_map e2, fun a cells ha hc => ⟨cells, by show t.ext[a]? = _; rw [e1, ha], rfl, fun _ => rfl⟩⟩
  | wrapExt a' o =>
    simp only [step] at h
    split at h
    · split at h
      · cases h
        exact ⟨(hg.snoc fun z => by cases z), fun a cells ha hc => ⟨cells, ha, rfl, fun _ => rfl⟩⟩
      · cases h
    · cases h
  | wrapOwn v =>
    obtain ⟨p, _, h⟩ := Res.bind_eq_ok.mp h
    cases h
    exact ⟨(hg.snoc fun z => by cases z), fun a cells ha hc => ⟨cells, ha, rfl, fun _ => rfl⟩⟩
  | assign v w =>
    obtain ⟨r, _, h⟩ := Res.bind_eq_ok.mp h
    obtain ⟨r', _, h⟩ := Res.bind_eq_ok.mp h
    obtain ⟨t, ht, h⟩ := Res.bind_eq_ok.mp h
    obtain ⟨u, hu, h⟩ := Res.bind_eq_ok.mp h
    cases h
    obtain ⟨e1, e2⟩ := retain_ext ht
    have hg' : Good { t with vars := t.vars.set v (some r') } := hg.of_map e2
    obtain ⟨e3, e4⟩ := release_ext hg' hu
    exact ⟨e4, fun a cells ha hc => ⟨cells, by rw [e3]; show t.ext[a]? = _; rw [e1, ha], rfl, fun _ => rfl⟩⟩
  | destroy v =>
    obtain ⟨r, _, h⟩ := Res.bind_eq_ok.mp h
    obtain ⟨u, hu, h⟩ := Res.bind_eq_ok.mp h
    cases h
    have hg' : Good { s with vars := s.vars.set v none } := hg
    obtain ⟨e3, e4⟩ := release_ext hg' hu
    exact ⟨e4, fun a cells ha hc => ⟨cells, by rw [e3, ha], rfl, fun _ => rfl⟩⟩
  | read v i =>
    obtain ⟨p, _, h⟩ := Res.bind_eq_ok.mp h
    obtain ⟨y, _, h⟩ := Res.bind_eq_ok.mp h
    cases h
    exact ⟨hg, fun a cells ha hc => ⟨cells, ha, rfl, fun _ => rfl⟩⟩
  | write v i y =>
    obtain ⟨p, _, h⟩ := Res.bind_eq_ok.mp h
    obtain ⟨t, ht, h⟩ := Res.bind_eq_ok.mp h
    cases h
    cases p with
    | own k o =>
      obtain ⟨l, _, ht⟩ := Res.bind_eq_ok.mp ht
      cases ht
      exact ⟨hg, fun a cells ha hc => ⟨cells, ha, rfl, fun _ => rfl⟩⟩
    | ext b o =>
      obtain ⟨l, hl, ht⟩ := Res.bind_eq_ok.mp ht
      cases ht
      refine ⟨hg, fun a cells ha hc => ?_⟩
      show ∃ cells', l[a]? = _ ∧ _
      unfold storeTo at hl
      split at hl
      · rename_i c hb
        split at hl
        · cases hl
          by_cases e : b = a
          · subst e
            rw [ha] at hb
            cases hb
            exact ⟨_, List.getElem?_set_self (List.getElem?_eq_some_iff.mp ha).1, by simp, fun z => absurd rfl (z v i y)⟩
          · exact ⟨cells, by rw [List.getElem?_set_ne e, ha], rfl, fun _ => rfl⟩
        · cases hl
      · cases hl
  | extNew c =>
    cases h
    refine ⟨hg, fun a cells ha hc => ⟨cells, ?_, rfl, fun _ => rfl⟩⟩
    show (s.ext ++ _)[a]? = _
    rw [List.getElem?_append_left (List.getElem?_eq_some_iff.mp ha).1, ha]
  | extFree b =>
    obtain ⟨t, ht, h⟩ := Res.bind_eq_ok.mp h
    cases h
    simp only [free] at ht
    split at ht
    · cases ht
      refine ⟨hg, fun a cells ha hc => ⟨cells, ?_, rfl, fun _ => rfl⟩⟩
      show (s.ext.set b none)[a]? = _
      rw [List.getElem?_set_ne (fun e => hc (by rw [e])), ha]
    · cases ht

theorem run_ext : ∀ (cs : List (Cmd α)) {s s' : St α} {xs : List α} {a : Nat} {cells : List (Option α)}, Good s → s.ext[a]? = some (some cells) → Cmd.extFree a ∉ cs →
    run s cs = .ok (s', xs) → ∃ cells', s'.ext[a]? = some (some cells') ∧ cells'.length = cells.length ∧ ((∀ v i y, Cmd.write v i y ∉ cs) → cells' = cells) := by
  intro cs
  induction cs with
  | nil => intro s s' xs a cells _ ha _ h; cases h; exact ⟨cells, ha, rfl, fun _ => rfl⟩
  | cons c cs ih =>
    intro s s' xs a cells hg ha hc h
    obtain ⟨⟨t, y⟩, ht, h⟩ := Res.bind_eq_ok.mp h
    obtain ⟨⟨u, ys⟩, hu, h⟩ := Res.bind_eq_ok.mp h
    cases h
    simp only [List.mem_cons, not_or] at hc
    obtain ⟨g', k⟩ := step_ext hg ht
    obtain ⟨c1, h1, h2, h3⟩ := k a cells ha fun e => hc.1 e.symm
    obtain ⟨c2, k1, k2, k3⟩ := ih g' h1 hc.2 hu
    refine ⟨c2, k1, k2.trans h2, fun hw => ?_⟩
    rw [k3 fun v i y m => hw v i y (List.mem_cons_of_mem _ m), h3 fun v i y e => hw v i y (by rw [e]; exact List.mem_cons_self)]

/-- **C322.** `MemArr` never frees an array of someone else whose pointer it wraps: in any program (also with wrapped pointers of other objects) an array
that its owner made stays in memory, with as many cells, until its owner frees it.  It changes only by writes. -/
theorem C322_wrapped (cs : List (Cmd α)) (pre : List (Cmd α)) {s s' : St α} {xs ys : List α} (hp : run init pre = .ok (s, ys)) {a : Nat} {cells : List (Option α)}
    (ha : s.ext[a]? = some (some cells)) (hc : Cmd.extFree a ∉ cs) (h : run s cs = .ok (s', xs)) :
    ∃ cells', s'.ext[a]? = some (some cells') ∧ cells'.length = cells.length ∧ ((∀ v i y, Cmd.write v i y ∉ cs) → cells' = cells) := by
  have good : ∀ (l : List (Cmd α)) {s s' : St α} {xs : List α}, Good s → run s l = .ok (s', xs) → Good s' := by
    intro l
    induction l with
    | nil => intro s s' xs hg h; cases h; exact hg
    | cons c l ih =>
      intro s s' xs hg h
      obtain ⟨⟨t, y⟩, ht, h⟩ := Res.bind_eq_ok.mp h
      obtain ⟨⟨u, zs⟩, hu, h⟩ := Res.bind_eq_ok.mp h
      cases h
      refine ih ?_ hu
      exact (step_ext hg ht).1
  have g0 : Good (init : St α) := fun b B h => by simp [init] at h
  exact run_ext cs (good pre g0 hp) ha hc h

example : ∃ s, run init [.extNew [some (1 : Int), some 2], .wrapExt 0 1, .copy 0, .read 0 0, .destroy 0, .write 1 0 5, .destroy 1] = .ok (s, [2]) ∧
    s.ext = [some [some 1, some 5]] := ⟨_, rfl, rfl⟩

theorem run_append (l l' : List (Cmd α)) (s : St α) : run s (l ++ l') = (do
    let r ← run s l
    let r' ← run r.1 l'
    .ok (r'.1, r.2 ++ r'.2)) := by
  induction l generalizing s with
  | nil => simp only [List.nil_append, run, Res.ok_bind]; cases run s l' <;> rfl
  | cons c l ih =>
    simp only [List.cons_append, run]
    cases step s c with
    | ok r =>
      simp only [Res.ok_bind, ih]
      cases run r.1 l with
      | ok q => simp only [Res.ok_bind]; cases run q.1 l' <;> simp [Res.ok_bind, List.append_assoc]
      | throw => rfl
      | ub => rfl
    | throw => rfl
    | ub => rfl

/-- **C323.** An object that wraps the pointer of another object does not keep its array in memory: it dangles when the other object is destroyed or
assigned to, and when the owner of a wrapped array frees it.  (A copy, or the object moved along, does keep it.) -/
theorem C323_dangling_fails : run init [.fresh 1, .write 0 0 (7 : Int), .wrapOwn 0, .destroy 0, .read 1 0] = .ub ∧
    run init [.fresh 1, .write 0 0 (7 : Int), .wrapOwn 0, .fresh 1, .assign 0 2, .read 1 0] = .ub ∧
    run init [.extNew [some (7 : Int)], .wrapExt 0 0, .extFree 0, .read 0 0] = .ub ∧
    (∃ s, run init [.fresh 1, .write 0 0 (7 : Int), .wrapOwn 0, .read 1 0, .destroy 1, .read 0 0] = .ok (s, [7, 7])) ∧
    ∃ s, run init [.fresh 1, .write 0 0 (7 : Int), .copy 0, .destroy 0, .read 1 0] = .ok (s, [7]) := ⟨rfl, rfl, rfl, ⟨_, rfl⟩, ⟨_, rfl⟩⟩

/-- As long as nothing is destroyed or assigned to, wrapped pointers of other objects do what plain pointers would do. -/
theorem C323_wrap_partial (cs : List (Cmd α)) (h : ∀ c ∈ cs, Plain c) {s : St α} {xs : List α} (e : run init cs = .ok (s, xs)) (v i : Nat) (x : α)
    (hr : ∃ s', run init (cs ++ [.read v i]) = .ok (s', xs ++ [x])) : ∃ s', run s [.wrapOwn v, .read s.vars.length i] = .ok (s', [x]) := by
  obtain ⟨s', hr⟩ := hr
  rw [run_append, e, Res.ok_bind] at hr
  obtain ⟨⟨t, ys⟩, ht, hr⟩ := Res.bind_eq_ok.mp hr
  obtain ⟨⟨t', y⟩, ht', ht⟩ := Res.bind_eq_ok.mp ht
  obtain ⟨p, hp, ht'⟩ := Res.bind_eq_ok.mp ht'
  obtain ⟨z, hz, ht'⟩ := Res.bind_eq_ok.mp ht'
  cases ht'
  cases ht
  have hzx : z = x := by
    simp only [Res.ok.injEq, Prod.mk.injEq, List.append_cancel_left_eq, Option.toList_some, List.append_nil] at hr
    exact List.head_eq_of_cons_eq hr.2
  subst hzx
  obtain ⟨r, hr1, hp⟩ := Res.bind_eq_ok.mp hp
  obtain ⟨b, o⟩ := r
  cases b with
  | none => cases hp
  | some b =>
    simp only at hp
    cases hB : s.blobs[b]? with
    | none => rw [hB] at hp; cases hp
    | some B =>
      rw [hB] at hp
      simp only at hp
      split at hp
      · cases hp
      · rename_i hc
        cases hp
        have a0 : address s v 0 = .ok (move B.ptr (0 + o)) := by
          unfold address
          rw [hr1, Res.ok_bind]
          simp only [hB]
          rw [if_neg hc]
        refine ⟨wrap s (move B.ptr (0 + o)), ?_⟩
        have a1 : address (wrap s (move B.ptr (0 + o))) s.vars.length i = .ok (move B.ptr (i + o)) := by
          unfold address obj wrap
          simp only [List.getElem?_append_right le_rfl, Nat.sub_self, List.getElem?_cons_zero, Res.ok_bind]
          rw [if_neg (by simp)]
          cases B.ptr <;> simp [move] <;> omega
        have a2 : load (wrap s (move B.ptr (0 + o))) (move B.ptr (i + o)) = .ok z := by
          rw [← hz]
          cases move B.ptr (i + o) <;> rfl
        simp only [run, step, a0, Res.ok_bind, a1, a2]
        rfl

/-! ### Sharing -/

theorem gc_append (l l' : List (Cmd α)) (g : GC α) : g.run (l ++ l') = (do
    let r ← g.run l
    let r' ← r.1.run l'
    .ok (r'.1, r.2 ++ r'.2)) := by
  induction l generalizing g with
  | nil => simp only [List.nil_append, GC.run, Res.ok_bind]; cases g.run l' <;> rfl
  | cons c l ih =>
    simp only [List.cons_append, GC.run]
    cases g.step c with
    | ok r =>
      simp only [Res.ok_bind, ih]
      cases r.1.run l with
      | ok q => simp only [Res.ok_bind]; cases q.1.run l' <;> simp [Res.ok_bind, List.append_assoc]
      | throw => rfl
      | ub => rfl
    | throw => rfl
    | ub => rfl

/-- **C324.** The object `v+i` shares the array of `v` and is `i` cells further: after any program, if `v` points to cell `o` of an array with more than
`o+i+j` cells, then what is written to `(v+i)[j]` is read from `v[i+j]`, what is written to `v[i+j]` is read from `(v+i)[j]`, and the array stays in memory
when `v` is destroyed. -/
theorem C324_shared (cs : List (Cmd α)) (h : ∀ c ∈ cs, Plain c) {g : GC α} {xs : List α} (e : GC.run GC.init cs = .ok (g, xs)) {v k o i j : Nat} {c : List (Option α)}
    (hv : g.vars[v]? = some (some (some (.own k o)))) (hk : g.heap[k]? = some c) (hc : o + i + j < c.length) (x y z : α) :
    ∃ s, run init (cs ++ [.plus v i, .write g.vars.length j x, .read v (i + j), .write v (i + j) y, .read g.vars.length j, .destroy v,
      .read g.vars.length j, .write g.vars.length j z, .read g.vars.length j]) = .ok (s, xs ++ [x, y, y, z]) := by
  have hp : ∀ d ∈ cs ++ [.plus v i, .write g.vars.length j x, .read v (i + j), .write v (i + j) y, .read g.vars.length j, .destroy v,
      .read g.vars.length j, .write g.vars.length j z, .read g.vars.length j], Plain d := by
    intro d hd
    rcases List.mem_append.mp hd with hd | hd
    · exact h d hd
    · simp only [List.mem_cons, List.not_mem_nil, or_false] at hd
      rcases hd with rfl | rfl | rfl | rfl | rfl | rfl | rfl | rfl | rfl <;> trivial
  have hvl := (List.getElem?_eq_some_iff.mp hv).1
  have hkl := (List.getElem?_eq_some_iff.mp hk).1
  have key : ∃ g', GC.run GC.init (cs ++ [.plus v i, .write g.vars.length j x, .read v (i + j), .write v (i + j) y, .read g.vars.length j, .destroy v,
      .read g.vars.length j, .write g.vars.length j z, .read g.vars.length j]) = .ok (g', xs ++ [x, y, y, z]) := by
    rw [gc_append, e, Res.ok_bind]
    have p1 : (g.vars ++ [some (some (Ptr.own k (o + i)))])[v]? = some (some (some (.own k o))) := by rw [List.getElem?_append_left hvl, hv]
    have p2 : (g.vars ++ [some (some (Ptr.own k (o + i)))])[g.vars.length]? = some (some (some (.own k (o + i)))) := by
      rw [List.getElem?_append_right le_rfl]; simp
    have p3 : ((g.vars ++ [some (some (Ptr.own k (o + i)))]).set v none)[g.vars.length]? = some (some (some (.own k (o + i)))) := by
      rw [List.getElem?_set_ne (by omega), p2]
    have q : ∀ (l : List (List (Option α))) (d : List (Option α)) (w : α), k < l.length → l[k]? = some d → d.length = c.length →
        GC.put l k (o + i + j) w = .ok (l.set k (d.set (o + i + j) (some w))) := by
      intro l d w _ h1 h2
      unfold GC.put
      simp only [h1]
      rw [if_pos (by omega)]
    have r : ∀ (l : List (List (Option α))) (d : List (Option α)) (w : α), k < l.length → d.length = c.length →
        GC.cellOf (l.set k (d.set (o + i + j) (some w))) k (o + i + j) = .ok w := by
      intro l d w h1 h2
      unfold GC.cellOf
      rw [List.getElem?_set_self h1]
      simp only
      rw [List.getElem?_set_self (by omega)]
    simp only [GC.run, GC.step, GC.ptr, hv, Res.ok_bind, Option.map_some, GC.shift, p1, p2, p3, ← Nat.add_assoc]
    rw [q g.heap c x hkl hk rfl]
    simp only [Res.ok_bind, p1, p2, p3]
    rw [r g.heap c x hkl rfl]
    simp only [Res.ok_bind, p1, p2, p3]
    rw [q _ (c.set (o + i + j) (some x)) y (by simpa using hkl) (List.getElem?_set_self hkl) (by simp)]
    simp only [Res.ok_bind, p1, p2, p3]
    rw [r _ _ y (by simpa using hkl) (by simp)]
    simp only [Res.ok_bind, p1, p2, p3]
    rw [r _ _ y (by simpa using hkl) (by simp)]
    simp only [Res.ok_bind, p1, p2, p3]
    rw [q _ ((c.set (o + i + j) (some x)).set (o + i + j) (some y)) z (by simpa using hkl) (List.getElem?_set_self (by simpa using hkl)) (by simp)]
    simp only [Res.ok_bind, p1, p2, p3]
    rw [r _ _ z (by simpa using hkl) (by simp)]
    exact ⟨_, rfl⟩
  obtain ⟨g', hg⟩ := key
  rcases C320_refines _ hp with ⟨_, w⟩ | ⟨s, g'', ys, w1, w2⟩
  · rw [hg] at w; cases w
  · rw [hg] at w2
    cases w2
    exact ⟨s, w1⟩

example : ∃ s, run init [.fresh 4, .plus 0 1, .plus 1 1, .write 2 1 (7 : Int), .read 0 3, .write 0 3 8, .read 2 1, .destroy 0, .read 2 1, .write 2 1 9, .read 2 1] =
    .ok (s, [7, 8, 8, 9]) := ⟨_, rfl⟩

/-- **C325.** What an object made without arguments, or from 0 elements, may be used for.  An object made without arguments has no blob, and every read
or write through it, through its copies and through `v+i` is undefined; it can be assigned to.  An object with 0 elements has one cell. -/
theorem C325_empty_fails : run init [.empty, .write 0 0 (7 : Int)] = .ub ∧ run init [(.empty : Cmd Int), .plus 0 3, .read 1 0] = .ub ∧
    (∃ s, run init [.empty, .fresh 1, .assign 0 1, .write 0 0 (7 : Int), .read 1 0] = .ok (s, [7])) ∧
    (∃ s, run init [.fresh 0, .write 0 0 (7 : Int), .read 0 0] = .ok (s, [7])) ∧ run init [.fresh 0, .write 0 1 (7 : Int)] = .ub ∧
    run init [(.zeroed 0 0 : Cmd Int), .read 0 0] = .ub := ⟨rfl, rfl, ⟨_, rfl⟩, ⟨_, rfl⟩, rfl, rfl⟩

/-- Every object made from at least one element can be written and read at each of them. -/
theorem C325_cells_partial (s : St α) (n i : Nat) (h : i < max n 1) (x : α) : ∃ s', run s [.fresh n, .write s.vars.length i x, .read s.vars.length i] = .ok (s', [x]) := by
  have a : ∀ t : St α, t.vars = s.vars ++ [some (some s.blobs.length, 0)] → t.blobs = s.blobs ++ [⟨1, false, .own s.heap.length 0⟩] →
      address t s.vars.length i = .ok (.own s.heap.length i) := by
    intro t h1 h2
    unfold address obj
    rw [h1, h2]
    simp only [List.getElem?_append_right le_rfl, Nat.sub_self, List.getElem?_cons_zero, Res.ok_bind]
    rw [if_neg (by simp)]
    simp [move]
  have b : storeTo (alloc s (List.replicate (max n 1) none)).heap s.heap.length i x =
      .ok ((s.heap ++ [some (List.replicate (max n 1) none)]).set s.heap.length (some ((List.replicate (max n 1) none).set i (some x)))) := by
    unfold storeTo alloc
    simp only [List.getElem?_append_right le_rfl, Nat.sub_self, List.getElem?_cons_zero]
    rw [if_pos (by simpa using h)]
  have c : loadFrom ((s.heap ++ [some (List.replicate (max n 1) none)]).set s.heap.length (some ((List.replicate (max n 1) none).set i (some x)))) s.heap.length i = .ok x := by
    unfold loadFrom
    rw [List.getElem?_set_self (by simp)]
    simp only
    rw [List.getElem?_set_self (by simpa using h)]
  simp only [run, step, Res.ok_bind]
  rw [a _ rfl rfl]
  simp only [Res.ok_bind, store]
  rw [b]
  simp only [Res.ok_bind]
  rw [a _ rfl rfl]
  simp only [Res.ok_bind, load]
  rw [c]
  exact ⟨_, rfl⟩

/-! ### Managers -/

theorem guards_block {μ : Type} {cur : μ} {k k' : Nat} {l : List (Guard μ)} {out : List μ} (h : Sees cur k l k' out) :
    ∀ (olds : List μ) (rest : List (Guard μ)), olds.length = k → ∃ olds', olds'.length = k' ∧ (∀ i < k, olds'[i]? = olds[i]?) ∧
      guards cur olds (l ++ rest) = (do
        let r ← guards cur olds' rest
        .ok (r.1, out ++ r.2)) := by
  induction h with
  | nil cur k =>
    intro olds rest hl
    refine ⟨olds, hl, fun _ _ => rfl, ?_⟩
    rw [List.nil_append]
    cases guards cur olds rest <;> rfl
  | look h ih =>
    intro olds rest hl
    obtain ⟨olds', e1, e2, e3⟩ := ih olds rest hl
    refine ⟨olds', e1, e2, ?_⟩
    rw [List.cons_append, guards, e3]
    cases guards _ olds' rest <;> rfl
  | @block cur m k k' k'' body l out out' h h' ih ih' =>
    intro olds rest hl
    obtain ⟨o1, e1, e2, e3⟩ := ih (olds ++ [cur]) (.off k :: (l ++ rest)) (by simp [hl])
    obtain ⟨o2, f1, f2, f3⟩ := ih' o1 rest e1
    have mono : ∀ {a b : Nat} {c : μ} {l : List (Guard μ)} {o : List μ}, Sees c a l b o → a ≤ b := by
      intro a b c l o h
      induction h with
      | nil => exact le_rfl
      | look _ ih => exact ih
      | block _ _ i1 i2 => omega
    have hk := mono h
    refine ⟨o2, f1, ?_, ?_⟩
    · intro i hi
      rw [f2 i (by omega), e2 i (by omega), List.getElem?_append_left (by omega)]
    · rw [List.cons_append, List.append_assoc, List.cons_append, guards, e3, guards]
      have : o1[k]? = some cur := by
        rw [e2 k (by omega), List.getElem?_append_right (by omega), hl]
        simp
      simp only [this]
      rw [f3]
      cases guards cur o2 rest with
      | ok r => simp [Res.ok_bind, List.append_assoc]
      | throw => rfl
      | ub => rfl

/-- **C326.** When guards are destroyed in the reverse order of their making (as local variables are), each use sees the manager of the innermost guard that
exists, and at the end the manager is the one there was before. -/
theorem C326_nested {μ : Type} {cur : μ} {l : List (Guard μ)} {k : Nat} {out : List μ} (h : Sees cur 0 l k out) : guards cur [] l = .ok (cur, out) := by
  obtain ⟨o, _, _, e⟩ := guards_block h [] [] rfl
  rw [List.append_nil] at e
  rw [e, guards, Res.ok_bind, List.append_nil]

example : Sees 0 0 [.look, .on 1, .look, .on 2, .look, .off 1, .look, .off 0, .look, .on 3, .look, .off 2] 3 [0, 1, 2, 1, 0, 3] :=
  .look (.block (body := [.look, .on 2, .look, .off 1, .look]) (out := [1, 2, 1]) (.look (.block (body := [.look]) (out := [2]) (.look (.nil 2 2)) (.look (.nil 1 2))))
    (.look (.block (body := [.look]) (out := [3]) (.look (.nil 3 3)) (.nil 0 3))))

/-- **C327.** In any other order the manager at the end is not the one there was before: it can be the manager of a guard that was destroyed. -/
theorem C327_order_fails : guards 0 [] [.on 1, .on 2, .off 0, .look, .off 1, .look] = .ok (1, [0, 1]) := rfl

/-- What the guards do in general: destroying the guard `i` puts back the manager that there was when it was made. -/
theorem C327_restore_partial {μ : Type} (cur : μ) (olds : List μ) (k : Nat) (o : μ) (h : olds[k]? = some o) :
    guards cur olds [.off k, .look] = .ok (o, [o]) := by
  simp only [guards, h, Res.ok_bind]

example : ([4, 5] : List Nat)[1]? = some 5 := rfl

/-- **C328.** A manager is asked for the number of bytes of an array with at least one element, if they are less than 2^31. -/
theorem C328_bytes_partial (memsize size : Nat) (h : max memsize 1 * size < 2 ^ 31) : requested memsize size = (max memsize 1 * size : Nat) ∧
    (0 < memsize → requestedFrom memsize size = (memsize * size : Nat)) := by
  have key : ∀ n : Nat, n < 2 ^ 31 → toInt32 (n % 2 ^ 64) = (n : Int) := by
    intro n hn
    unfold toInt32
    rw [Nat.mod_eq_of_lt (show n < 2 ^ 64 by omega), Nat.mod_eq_of_lt (show n < 2 ^ 32 by omega)]
    simp only
    rw [if_pos hn]
  refine ⟨key _ h, fun hp => key _ ?_⟩
  rw [Nat.max_eq_left hp] at h
  exact h

example : max 1000 1 * 4 < 2 ^ 31 ∧ requested 1000 4 = 4000 ∧ requested 0 4 = 4 ∧ requestedFrom 0 4 = 0 := by decide

/-- For 2^30 floats it is asked for no bytes, for 2^29 floats for a negative number, for 2^30+1 floats for 4 bytes. -/
theorem C328_bytes_fails : requested (2 ^ 30) 4 = 0 ∧ requested (2 ^ 29) 4 = -2147483648 ∧ requested (2 ^ 30 + 1) 4 = 4 := by decide

end Mem

end Cnine
