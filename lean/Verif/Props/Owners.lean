import Verif.Lemmas.Owners
import Mathlib.Data.Nat.Basic

/-!
# C329–C336: containers that own objects, wrappers that keep a result, packs of objects, maps with several keys
-/

namespace Cnine

namespace Assoc

variable {κ α : Type} [LinearOrder κ]

/-- C329.  A program that makes, copies, moves, reads, writes and destroys containers of owned objects does what it would do if containers held values: it
returns the same, and ends in the same way.  (`share`, which gives one object to two owners, is left to C331.) -/
theorem C329_values (d : α) (cs : List (Cmd κ α)) (hp : ∀ c ∈ cs, Plain c) :
    (run d init cs = .ub ∧ Vals.run d [] cs = .ub) ∨ (run d init cs = .throw ∧ Vals.run d [] cs = .throw) ∨
      ∃ s g xs, run d init cs = .ok (s, xs) ∧ Vals.run d [] cs = .ok (g, xs) := by
  rcases run_ok cs (init_inv d) hp with h | h | ⟨s, g, xs, h1, h2, _⟩
  · exact Or.inl h
  · exact Or.inr (Or.inl h)
  · exact Or.inr (Or.inr ⟨s, g, xs, h1, h2⟩)

/-- A copy keeps its own objects; the container moved from is empty. -/
example : Vals.run (0 : Int) [] [.make, .put 0 (3 : Nat) 7, .copy 0, .put 0 3 8, .get 1 3, .move 0, .size 0, .list 2] =
    .ok ([some [], some [(3, 7)], some [(3, 8)]], [.none, .none, .none, .none, .val 7, .none, .num 0, .vals [(3, 8)]]) := rfl

example : (run (0 : Int) init [.make, .put 0 (3 : Nat) 7, .copy 0, .put 0 3 8, .get 1 3, .move 0, .size 0, .list 2] : Res _) =
    .ok (⟨[some 8, some 7], [some [], some [(3, 1)], some [(3, 0)]]⟩, [.none, .none, .none, .none, .val 7, .none, .num 0, .vals [(3, 8)]]) := rfl

example : ∀ c ∈ ([.make, .put 0 (3 : Nat) (7 : Int), .copy 0, .destroy 0] : List (Cmd Nat Int)), Plain c := by
  intro c hc
  simp only [List.mem_cons, List.not_mem_nil, or_false] at hc
  rcases hc with rfl | rfl | rfl | rfl <;> trivial

/-- C330.  At every moment the live objects are those that the containers point to, each container entry has an object of its own, and when every container
has been destroyed no object is left. -/
theorem C330_owned (d : α) (cs : List (Cmd κ α)) (hp : ∀ c ∈ cs, Plain c) (s : St κ α) (xs : List (Out κ α)) (h : run d init cs = .ok (s, xs)) :
    (s.maps.flatMap fun o => match o with | none => [] | some m => m.map Prod.snd).Nodup ∧
      (∀ p : Nat, (∃ x, s.heap[p]? = some (some x)) ↔ ∃ (c : Nat) (m : OMap κ Nat) (k : κ), s.maps[c]? = some (some m) ∧ (k, p) ∈ m) ∧
      ((∀ o ∈ s.maps, o = none) → ∀ o ∈ s.heap, o = none) := by
  rcases run_ok cs (init_inv d) hp with ⟨h1, _⟩ | ⟨h1, _⟩ | ⟨s', g, xs', h1, _, h3⟩
  · rw [h] at h1; cases h1
  · rw [h] at h1; cases h1
  · rw [h] at h1
    cases h1
    have live : ∀ p : Nat, (∃ x, s.heap[p]? = some (some x)) ↔ ∃ (c : Nat) (m : OMap κ Nat) (k : κ), s.maps[c]? = some (some m) ∧ (k, p) ∈ m := by
      intro p
      rw [← h3.own.2 p, List.mem_flatMap]
      constructor
      · rintro ⟨o, ho, hq⟩
        cases o with
        | none => exact absurd hq (by simp [ptrs])
        | some m =>
          obtain ⟨c, hc⟩ := List.mem_iff_getElem?.mp ho
          obtain ⟨e, he, rfl⟩ := List.mem_map.mp hq
          exact ⟨c, m, e.1, hc, he⟩
      · rintro ⟨c, m, k, hc, hm⟩
        exact ⟨some m, List.mem_of_getElem? hc, List.mem_map.mpr ⟨(k, p), hm, rfl⟩⟩
    refine ⟨h3.own.1, live, fun hn o ho => ?_⟩
    cases o with
    | none => rfl
    | some x =>
      obtain ⟨p, hq⟩ := List.mem_iff_getElem?.mp ho
      obtain ⟨c, m, _, hc, _⟩ := (live p).1 ⟨x, hq⟩
      cases hn _ (List.mem_of_getElem? hc)

example : (run (0 : Int) init [.make, .put 0 (3 : Nat) 7, .copy 0, .destroy 0, .destroy 1] : Res _) =
    .ok (⟨[none, none], [none, none]⟩, [.none, .none, .none, .none, .none]) := rfl

/-- C331, what fails: `c.insert(k,c.pointer_to(k'))` gives one object two owners, and the destructor deletes it twice; and `first()` of an empty container
does not throw. -/
theorem C331_share_fails : run (0 : Int) init [.make, .put 0 (3 : Nat) 7, .share 0 4 0 3] = .ok (⟨[some 7], [some [(3, 0), (4, 0)]]⟩, [.none, .none, .none]) ∧
    run (0 : Int) init [.make, .put 0 (3 : Nat) 7, .share 0 4 0 3, .destroy 0] = .ub ∧
    run (0 : Int) (init : St Nat Int) [.make, .first 0] = .ub := ⟨rfl, rfl, rfl⟩

/-- C331, what holds: inserting the pointer of an entry under a new key succeeds, makes no object, and the new key then reads the object of the old one.
(Missing: an owner for each object; see `C331_share_fails`.) -/
theorem C331_share_partial (d : α) (s : St κ α) (c c' : Nat) (k k' : κ) (m m' : OMap κ Nat) (p : Nat) (x : α) (hc : s.maps[c]? = some (some m))
    (hc' : s.maps[c']? = some (some m')) (hp : OMap.find? k' m' = some p) (hk : OMap.find? k m = none) (hx : s.heap[p]? = some (some x)) :
    ∃ s', step d s (.share c k c' k') = .ok (s', .none) ∧ step d s' (.look c k) = .ok (s', .val x) ∧ s'.heap = s.heap := by
  have e1 : pointerTo d s c' k' = .ok (s, p) := by
    unfold pointerTo cont
    rw [hc']
    simp only [Res.ok_bind, hp]
  have e2 : cont s c = .ok m := by unfold cont; rw [hc]
  have hl := (List.getElem?_eq_some_iff.mp hc).1
  refine ⟨{ s with maps := s.maps.set c (some (OMap.set k p m)) }, ?_, ?_, rfl⟩
  · simp only [step, e1, Res.ok_bind, e2, hk]
  · simp only [step, cont, List.getElem?_set_self hl, Res.ok_bind, OMap.find?_set_self, deref, hx]

example : (step (0 : Int) ⟨[some 7], [some [], some [((3 : Nat), 0)]]⟩ (.share 0 4 1 3) : Res _) = .ok (⟨[some 7], [some [(4, 0)], some [(3, 0)]]⟩, .none) := rfl

end Assoc

namespace Cached

variable {α : Type}

/-- C332.  A program with wrappers `cachedf` that copies no wrapper after its first call and calls no wrapper made from a function returning a value (the
reference says `ub` for both): wrappers behave as if they held the value, each function is called when its wrapper is called for the first time and not
again, and the live objects are exactly those that the wrappers hold. -/
theorem C332_cached_partial (F : Nat → Nat → α) (cs : List Cmd) (hu : valRun F ([], 0) cs ≠ .ub) :
    (run F init cs = .throw ∧ valRun F ([], 0) cs = .throw) ∨
      ∃ s g xs, run F init cs = .ok (s, xs) ∧ valRun F ([], 0) cs = .ok (g, xs) ∧ s.calls.length = g.2 ∧
        (∀ p : Nat, (∃ x, s.heap[p]? = some (some x)) ↔ ∃ (o : Nat) (m : Mk), s.objs[o]? = some (some (some p, m))) ∧
        ∀ (o o' p : Nat) (m m' : Mk), s.objs[o]? = some (some (some p, m)) → s.objs[o']? = some (some (some p, m')) → o = o' := by
  rcases run_ok F cs (init_inv (F 0 0)) with h | h | ⟨s, g, xs, h1, h2, h3⟩
  · exact absurd h hu
  · exact Or.inl h
  · refine Or.inr ⟨s, g, xs, h1, h2, h3.calls.symm, fun p => ?_, ?_⟩
    · rw [← h3.own.2 p, List.mem_flatMap]
      constructor
      · rintro ⟨o, ho, hq⟩
        obtain ⟨c, hc⟩ := List.mem_iff_getElem?.mp ho
        match o, hc, hq with
        | none, _, hq => exact absurd hq (by simp [ptr])
        | some (none, _), _, hq => exact absurd hq (by simp [ptr])
        | some (some q, m), hc, hq =>
          have : p = q := by simpa [ptr] using hq
          subst this
          exact ⟨c, m, hc⟩
      · rintro ⟨o, m, ho⟩
        exact ⟨_, List.mem_of_getElem? ho, by simp [ptr]⟩
    · intro o o' p m m' ho ho'
      by_contra ne
      have hp := Owner.flat_set ptr s.objs o _ none ho
      simp only [ptr, List.append_nil] at hp
      have hn := hp.nodup_iff.mpr h3.own.1
      have := List.disjoint_of_nodup_append hn
      exact this (mem_ptr (o := o') (m := m') (by rw [List.getElem?_set_ne ne]; exact ho')) (by simp)

example : valRun (fun f n => (10 * f + n : Int)) ([], 0) [.make (.ptr 4), .copy 0, .call 0, .call 0, .call 1, .destroy 0, .call 1] =
    .ok (([none, some (some 41, .ptr 4)], 2), [40, 40, 41, 41]) := rfl

example : (run (fun f n => (10 * f + n : Int)) init [.make (.ptr 4), .copy 0, .call 0, .call 0, .call 1, .destroy 0, .call 1] : Res _) =
    .ok (⟨[none, some 41], [none, some (some 1, .ptr 4)], [4, 4]⟩, [40, 40, 41, 41]) := rfl

/-- C332, what fails: a wrapper copied after its first call shares the object with its copy, and the second destructor deletes it again; after the first
one the other wrapper reads memory that was freed.  A wrapper made from a function returning a value keeps a reference to a parameter of its constructor. -/
theorem C332_copied_fails : let F : Nat → Nat → Int := fun f n => (10 * f + n : Int)
    run F init [.make (.ptr 4), .call 0, .copy 0, .destroy 0, .destroy 1] = .ub ∧ run F init [.make (.ptr 4), .call 0, .copy 0, .destroy 0, .call 1] = .ub ∧
    run F init [.make (.val 4), .call 0] = .ub ∧ run F init [.make (.ptr 4), .call 0, .destroy 0] = .ok (⟨[none], [none], [4]⟩, [40]) := ⟨rfl, rfl, rfl, rfl⟩

/-- C333.  A wrapper called again returns what it returned before, calls no function and changes nothing; this holds in every state, and for both wrappers.
A wrapper made without a function throws. -/
theorem C333_again (F : Nat → Nat → α) :
    (∀ (s s' : St α) (x : α) (o : Nat), step F s (.call o) = .ok (s', some x) → step F s' (.call o) = .ok (s', some x)) ∧
    (∀ (w : ByValue α) (n m : Nat), let r := w.call F n
      r.1.call F m = (r.1, m, r.2.2) ∧ (w.done = true → r = (w, n, w.obj)) ∧ (w.done = false → r.2 = (n + 1, F w.f n))) ∧
    ∀ (s : St α) (o : Nat), s.objs[o]? = some (some (none, .null)) → step F s (.call o) = .throw := by
  refine ⟨call_again F, ?_, ?_⟩
  · intro w n m
    obtain ⟨d, x, f⟩ := w
    cases d <;> simp [ByValue.call]
  · intro s o h
    simp only [step, obj, h, Res.ok_bind]

example : (step (fun f n => (10 * f + n : Int)) ⟨[], [some (none, .ptr 4)], []⟩ (.call 0) : Res _) = .ok (⟨[some 40], [some (some 0, .ptr 4)], [4]⟩, some 40) := rfl

end Cached

namespace Pack

variable {α β : Type}

/-- C334.  Packs of objects held by value: an index is accepted exactly if it lies between 0 and the length; `zip` calls its function on the pairs of
elements in their order, and throws if the lengths differ; `mapcar` maps. -/
theorem C334_byValue (l l' : List α) (fn : α → β) :
    (∀ i : Int, (0 ≤ i ∧ i < l.length → ∃ x, l[i.toNat]? = some x ∧ at' l i = .ok x) ∧ (¬ (0 ≤ i ∧ i < l.length) → at' l i = .throw)) ∧
    (l.length = l'.length → zip l l' = .ok (l.zip l')) ∧ (l.length ≠ l'.length → zip l l' = .throw) ∧
    (mapcar fn l).length = l.length ∧ ∀ i : Nat, (mapcar fn l)[i]? = (l[i]?).map fn := by
  refine ⟨fun i => ⟨fun ⟨h0, h1⟩ => ?_, at_throw l i⟩, zip_ok l l', fun h => ?_, by simp [mapcar], fun i => by simp [mapcar]⟩
  · have hi : i.toNat < l.length := by omega
    refine ⟨l[i.toNat], List.getElem?_eq_getElem hi, ?_⟩
    have := at_ok l i.toNat hi
    rwa [Int.toNat_of_nonneg h0] at this
  · unfold zip
    rw [show (l.length == l'.length) = false by simpa using h]
    rfl

example : zip [1, 2] [3, 4] = .ok [(1, 3), (2, 4)] ∧ at' [1, 2] (-1) = .throw ∧ at' [1, 2] 1 = .ok 2 := ⟨rfl, rfl, rfl⟩

/-- C335.  Packs that share their objects: `zip` with a function that assigns to its first argument sets each object of the first pack to the function of the
two objects as they were before, and changes nothing else, provided the first pack has no object twice and the packs have none in common; `mapcar` makes
new objects and leaves the old ones; both `operator[]` accept an index between 0 and the length. -/
theorem C335_shared_partial (fn : α → α → α) (fm : α → α) (heap : List α) (ps qs : List Nat) (hlen : ps.length = qs.length) (hnd : ps.Nodup)
    (hp : ∀ p ∈ ps, p < heap.length) (hq : ∀ q ∈ qs, q < heap.length) (hdis : ∀ p ∈ ps, p ∉ qs) :
    (∃ heap', zipShared fn heap (ps.map some) (qs.map some) = .ok heap' ∧ heap'.length = heap.length ∧
      (∀ (i : Nat) (p q : Nat), ps[i]? = some p → qs[i]? = some q → ∃ x y, heap[p]? = some x ∧ heap[q]? = some y ∧ heap'[p]? = some (fn x y)) ∧
      ∀ r : Nat, r ∉ ps → heap'[r]? = heap[r]?) ∧
    (∃ xs, qs.map (fun q => (heap[q]?).map fm) = xs.map some ∧
      mapShared fm heap (qs.map some) = .ok (heap ++ xs, (List.range' heap.length qs.length).map some)) ∧
    ∀ i : Nat, i < ps.length → ∃ p, ps[i]? = some p ∧ atConst (ps.map some) i = .ok p ∧ atVar (ps.map some) i = .ok p := by
  refine ⟨?_, ?_, ?_⟩
  · obtain ⟨heap', h1, h2, h3, h4⟩ := zipLoop_ok fn ps qs hlen ps.length 0 heap (by omega) hnd hp hq hdis
    refine ⟨heap', ?_, h2, fun i p q => h3 i p q (Nat.zero_le _), fun r hr => h4 r fun j _ e => hr (List.mem_of_getElem? e)⟩
    unfold zipShared
    rw [show ((ps.map some).length == (qs.map some).length) = true by simpa using hlen, Res.assrt_true, Res.ok_bind, List.length_map, List.range_eq_range']
    exact h1
  · obtain ⟨xs, h1, h2⟩ := mapLoop_ok fm qs heap [] hq
    exact ⟨xs, h1, by simpa [mapShared] using h2⟩
  · intro i hi
    refine ⟨ps[i], List.getElem?_eq_getElem hi, ?_, ?_⟩
    · unfold atConst
      rw [if_pos (by simpa using hi), if_neg (by omega)]
      simp [hi]
    · unfold atVar
      rw [if_pos ⟨by omega, by simpa using hi⟩]
      simp [hi]

example : zipShared (fun x y : Int => x + y) [1, 2, 30, 40] [some 0, some 1] [some 2, some 3] = .ok [31, 42, 30, 40] := rfl

example : mapShared (fun x : Int => 2 * x) [1, 2] [some 1, some 1] = .ok ([1, 2, 4, 4], [some 2, some 3]) := rfl

/-- C335, what fails: with an object twice in the first pack, or in both packs, later steps see what earlier ones wrote; and the const `operator[]` of a
shared pack does not refuse a negative index, which the other one does. -/
theorem C335_shared_fails : zipShared (fun x y : Int => x + y) [1, 10, 100] [some 0, some 0] [some 1, some 2] = .ok [111, 10, 100] ∧
    zipShared (fun x y : Int => x + y) [1, 10, 100] [some 0, some 1] [some 1, some 0] = .ok [11, 21, 100] ∧
    atConst [some 0] (-1) = .ub ∧ atVar [some 0] (-1) = .throw ∧ atConst [some 0] 1 = .throw := ⟨rfl, rfl, rfl, rfl, rfl⟩

end Pack

namespace Keys

variable {A B C D E υ : Type} [LinearOrder A] [LinearOrder B] [DecidableEq C] [DecidableEq D] [DecidableEq E]

/-- C336.  Maps with two to five keys: whatever the hash functions of the keys are, reading `m(i1,…)` gives the value last assigned to these keys, or the
default if there was none.  The order on pairs of keys is lexicographic, irreflexive, transitive and total. -/
theorem C336_keys (d : υ) (a : A → BitVec 64) (b : B → BitVec 64) (c : C → BitVec 64) (e : D → BitVec 64) (f : E → BitVec 64) :
    (∀ cs : List ((A × B) × Option υ), run d eq2 (hash2 a b) [] cs = readLast d (fun _ => none) cs) ∧
    (∀ cs : List ((A × B × C) × Option υ), run d eq3 (hash3 a b c) [] cs = readLast d (fun _ => none) cs) ∧
    (∀ cs : List ((A × B × C × D) × Option υ), run d eq4 (hash4 a b c e) [] cs = readLast d (fun _ => none) cs) ∧
    (∀ cs : List ((A × B × C × D × E) × Option υ), run d eq5 (hash5 a b c e f) [] cs = readLast d (fun _ => none) cs) ∧
    (∀ x y : A × B, lt2 x y = true ↔ x.1 < y.1 ∨ (x.1 = y.1 ∧ x.2 < y.2)) ∧ (∀ x : A × B, lt2 x x = false) ∧
    (∀ x y z : A × B, lt2 x y = true → lt2 y z = true → lt2 x z = true) ∧ ∀ x y : A × B, lt2 x y = false → lt2 y x = false → eq2 x y = true := by
  have hlt : ∀ x y : A × B, lt2 x y = true ↔ x.1 < y.1 ∨ (x.1 = y.1 ∧ x.2 < y.2) := by
    rintro ⟨x1, x2⟩ ⟨y1, y2⟩
    unfold lt2
    dsimp only
    rcases lt_trichotomy x1 y1 with h | h | h
    · simp [h]
    · subst h; simp
    · rw [if_neg (lt_asymm h), if_pos h]
      simp [lt_asymm h, ne_of_gt h]
  refine ⟨fun cs => run_ok ?_ d cs [] _ fun _ => rfl, fun cs => run_ok ?_ d cs [] _ fun _ => rfl, fun cs => run_ok ?_ d cs [] _ fun _ => rfl,
    fun cs => run_ok ?_ d cs [] _ fun _ => rfl, hlt, ?_, ?_, ?_⟩
  · rintro ⟨x1, x2⟩ ⟨y1, y2⟩; simp [eq2]
  · rintro ⟨x1, x2, x3⟩ ⟨y1, y2, y3⟩; simp [eq3, and_assoc]
  · rintro ⟨x1, x2, x3, x4⟩ ⟨y1, y2, y3, y4⟩; simp [eq4, and_assoc]
  · rintro ⟨x1, x2, x3, x4, x5⟩ ⟨y1, y2, y3, y4, y5⟩; simp [eq5, and_assoc]
  · intro x
    rw [Bool.eq_false_iff, Ne, hlt]
    rintro (h | ⟨_, h⟩) <;> exact absurd h (lt_irrefl _)
  · intro x y z h1 h2
    rw [hlt] at *
    rcases h1 with h1 | ⟨h1, h1'⟩ <;> rcases h2 with h2 | ⟨h2, h2'⟩
    · exact Or.inl (lt_trans h1 h2)
    · exact Or.inl (h2 ▸ h1)
    · exact Or.inl (h1 ▸ h2)
    · exact Or.inr ⟨h1.trans h2, lt_trans h1' h2'⟩
  · rintro ⟨x1, x2⟩ ⟨y1, y2⟩ h1 h2
    rw [Bool.eq_false_iff, Ne, hlt] at h1 h2
    push Not at h1 h2
    have e1 : x1 = y1 := le_antisymm h2.1 h1.1
    have e2 : x2 = y2 := le_antisymm (h2.2 e1.symm) (h1.2 e1)
    simp [eq2, e1, e2]

example : run (0 : Int) eq2 (hash2 (fun n : Nat => BitVec.ofNat 64 n) (fun n : Nat => BitVec.ofNat 64 n)) [] [((1, 0), some 5), ((0, 2), some 6), ((1, 0), none),
    ((0, 2), none), ((7, 7), none)] = [5, 6, 0] := by decide

end Keys

end Cnine
