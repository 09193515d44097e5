import Verif.Lemmas.PoolMemRead

/-!
# Properties of the memory of array pools

C434 programs on pools agree with lists of lists, without undefined behaviour and without leaks · C435 the copy on the GPU · C436 what the reference leaves out: assignment to
itself, views that grow, pools moved away, copies on the GPU · C437 `operator==` · C438 `as_vecs` and `for_each`.
-/

namespace Cnine

open PoolMem

variable {α : Type}

/-! ### C434 programs on pools -/

/-- A program that the reference accepts: same results, and each block in use belongs to a pool in use. -/
theorem C434_programs (p : List (Cmd α)) (g : List (Option (PoolRef.Pool α))) (xs : List (List (List α))) (h : PoolRef.run [] p = .ok (g, xs)) :
    ∃ s, run start p = .ok (s, xs) ∧
      (∀ b, (∃ x, s.host[b]? = some (some x)) ↔ ∃ (v : Nat) (o : Obj), s.objs[v]? = some (some o) ∧ o.arr = some b) ∧
      (∀ b, (∃ x, s.dev[b]? = some (some x)) ↔ ∃ (v : Nat) (o : Obj), s.objs[v]? = some (some o) ∧ (o.arrg = some b ∨ ∃ t, o.clone = some (b, t))) := by
  have := run_ok p (start_inv (α := α))
  rw [h] at this
  obtain ⟨s, h1, i⟩ := this
  refine ⟨s, h1, fun b => ?_, fun b => ?_⟩
  · rw [← i.own.2 b, List.nil_append, List.mem_flatMap]
    constructor
    · rintro ⟨o, ho, hb⟩
      cases o with
      | none => cases hb
      | some o =>
        obtain ⟨v, hv⟩ := List.mem_iff_getElem?.mp ho
        exact ⟨v, o, hv, Option.mem_toList.mp hb⟩
    · rintro ⟨v, o, hv, hb⟩
      exact ⟨some o, List.mem_of_getElem? hv, Option.mem_toList.mpr hb⟩
  · rw [← i.ownd.2 b, List.nil_append, List.mem_flatMap]
    constructor
    · rintro ⟨o, ho, hb⟩
      cases o with
      | none => cases hb
      | some o =>
        obtain ⟨v, hv⟩ := List.mem_iff_getElem?.mp ho
        refine ⟨v, o, hv, ?_⟩
        rcases List.mem_append.mp hb with hb | hb
        · exact Or.inl (Option.mem_toList.mp hb)
        · obtain ⟨q, hq, rfl⟩ := Option.map_eq_some_iff.mp (Option.mem_toList.mp hb)
          exact Or.inr ⟨q.2, hq⟩
    · rintro ⟨v, o, hv, hb⟩
      refine ⟨some o, List.mem_of_getElem? hv, List.mem_append.mpr ?_⟩
      rcases hb with hb | ⟨t, hb⟩
      · exact Or.inl (Option.mem_toList.mpr hb)
      · exact Or.inr (Option.mem_toList.mpr (Option.map_eq_some_iff.mpr ⟨_, hb, rfl⟩))

/-- An index out of range throws, in the machine as in the reference. -/
theorem C434_throws (p : List (Cmd α)) (h : PoolRef.run [] p = .throw) : run (start : State α) p = .throw := by
  have := run_ok p (start_inv (α := α))
  rw [h] at this
  exact this

/-- When all pools are gone, so is all memory. -/
theorem C434_no_leak (p : List (Cmd α)) (g : List (Option (PoolRef.Pool α))) (xs : List (List (List α))) (h : PoolRef.run [] p = .ok (g, xs)) (hg : ∀ r ∈ g, r = none) :
    ∃ s, run start p = .ok (s, xs) ∧ (∀ b ∈ s.host, b = none) ∧ ∀ b ∈ s.dev, b = none := by
  have := run_ok p (start_inv (α := α))
  rw [h] at this
  obtain ⟨s, h1, i⟩ := this
  have ho : ∀ (v : Nat) (o : Obj), s.objs[v]? ≠ some (some o) := by
    intro v o hv
    have hr := i.rel v
    rw [hv] at hr
    cases hgv : g[v]? with
    | none => rw [hgv] at hr; exact hr
    | some r => rw [hgv, hg r (List.mem_of_getElem? hgv)] at hr; exact hr
  obtain ⟨s', h1', h2, h3⟩ := C434_programs p g xs h
  obtain ⟨rfl, -⟩ := Prod.mk.inj (Res.ok.inj (h1.symm.trans h1'))
  refine ⟨s, h1, fun b hb => ?_, fun b hb => ?_⟩
  · obtain ⟨k, hk⟩ := List.mem_iff_getElem?.mp hb
    cases b with
    | none => rfl
    | some x =>
      obtain ⟨v, o, hv, -⟩ := (h2 k).1 ⟨x, hk⟩
      exact absurd hv (ho v o)
  · obtain ⟨k, hk⟩ := List.mem_iff_getElem?.mp hb
    cases b with
    | none => rfl
    | some x =>
      obtain ⟨v, o, hv, -⟩ := (h3 k).1 ⟨x, hk⟩
      exact absurd hv (ho v o)

/-- A program with growth, a copy, moves, an assignment and transport. -/
def sample : List (Cmd Nat) :=
  [.make, .push 0 [1, 2], .push 0 [], .push 0 [3], .copy 0, .set 1 0 1 7, .get 0 0, .get 1 0, .move 1, .assign 1 0, .get 2 2, .toDevice 2 true, .moveAssign 0 2, .toDevice 0 false,
    .get 0 0, .gpuArrs 1, .destroy 0, .destroy 1, .destroy 2]

example : (PoolRef.run [] sample = .ok ([none, none, none], [[[1, 2]], [[1, 7]], [[3]], [[1, 7]], [[1, 2], [], [3]]])) := by decide

example : (∃ s, run (start : State Nat) sample = .ok (s, [[[1, 2]], [[1, 7]], [[3]], [[1, 7]], [[1, 2], [], [3]]])) := ⟨_, rfl⟩

/-! ### C435 the copy on the GPU -/

/-- The first call of `gpu_arrs` on a pool sends its lists. -/
theorem C435_first_partial (p : List (Cmd α)) (g : List (Option (PoolRef.Pool α))) (xs : List (List (List α))) (h : PoolRef.run [] p = .ok (g, xs)) (v : Nat) (L : List (List α))
    (hv : g[v]? = some (some ⟨some L, false, none⟩)) : ∃ s s', run start p = .ok (s, xs) ∧ gpuArrs s v = .ok (s', L) := by
  have := run_ok p (start_inv (α := α))
  rw [h] at this
  obtain ⟨s, h1, i⟩ := this
  have hs := gpuArrs_ok i v
  unfold Agrees at hs
  have hf : PoolRef.full g v = .ok (⟨some L, false, none⟩, L) := by
    unfold PoolRef.full PoolRef.look
    rw [hv]
    rfl
  rw [PoolRef.step, hf, Res.ok_bind] at hs
  dsimp only at hs
  rw [if_neg (by simp)] at hs
  obtain ⟨s', h2, -⟩ := hs
  rw [step] at h2
  obtain ⟨⟨s2, l⟩, h3, h4⟩ := Res.bind_eq_ok.mp h2
  obtain ⟨-, e⟩ := Prod.mk.inj (Res.ok.inj h4)
  rw [Option.some.inj e] at h3
  exact ⟨s, s2, h1, h3⟩

example : PoolRef.run [] [Cmd.make, .push 0 [1], .gpuArrs 0] = .ok ([some ⟨some [[1]], false, some [[1]]⟩], [[[1]]]) := by decide

/-- Later calls give what was sent first: after a push, after a cell was set, and after an assignment, by copy or by move. -/
theorem C435_stale_fails :
    (∃ s, run (start : State Nat) [.make, .push 0 [1], .gpuArrs 0, .push 0 [2], .gpuArrs 0] = .ok (s, [[[1]], [[1]]])) ∧
    (∃ s, run (start : State Nat) [.make, .push 0 [1], .gpuArrs 0, .set 0 0 0 5, .get 0 0, .gpuArrs 0] = .ok (s, [[[1]], [[5]], [[1]]])) ∧
    (∃ s, run (start : State Nat) [.make, .push 0 [1], .gpuArrs 0, .make, .push 1 [2, 3], .assign 0 1, .get 0 0, .gpuArrs 0] = .ok (s, [[[1]], [[2, 3]], [[1]]])) ∧
    (∃ s, run (start : State Nat) [.make, .push 0 [1], .gpuArrs 0, .make, .push 1 [2, 3], .moveAssign 0 1, .get 0 0, .gpuArrs 0] = .ok (s, [[[1]], [[2, 3]], [[1]]])) :=
  ⟨⟨_, rfl⟩, ⟨_, rfl⟩, ⟨_, rfl⟩, ⟨_, rfl⟩⟩

/-! ### C436 what the reference leaves out -/

/-- A pool assigned to itself has lost its lists; reading one is undefined.  The same after `x=std::move(x)`. -/
theorem C436_self_fails :
    run (start : State Nat) [.make, .push 0 [1], .assign 0 0, .get 0 0] = .ub ∧ run (start : State Nat) [.make, .push 0 [1], .moveAssign 0 0, .get 0 0] = .ub :=
  ⟨rfl, rfl⟩

/-- A view that grows releases the array of its owner: the owner's array is used after its release, and released twice. -/
theorem C436_view_fails :
    (∃ s, run (start : State Nat) [.make, .push 0 [1], .view 0, .get 1 0, .destroy 1, .get 0 0, .destroy 0] = .ok (s, [[[1]], [[1]]])) ∧
    run (start : State Nat) [.make, .push 0 [1], .view 0, .push 1 [2], .get 0 0] = .ub ∧
    run (start : State Nat) [.make, .push 0 [1], .view 0, .push 1 [2], .destroy 1, .destroy 0] = .ub ∧
    run (start : State Nat) [.make, .push 0 [1], .view 0, .toDevice 1 true, .destroy 0] = .ub :=
  ⟨⟨_, rfl⟩, rfl, rfl, rfl⟩

/-- A pool that was moved away keeps its number of lists; neither reading nor appending is defined. -/
theorem C436_moved_fails :
    (∃ s o, run (start : State Nat) [.make, .push 0 [1], .move 0] = .ok (s, []) ∧ look s 0 = .ok o ∧ o.dir.n = 1) ∧
    run (start : State Nat) [.make, .push 0 [1], .move 0, .get 0 0] = .ub ∧ run (start : State Nat) [.make, .push 0 [1], .move 0, .push 0 [2]] = .ub :=
  ⟨⟨_, _, rfl, rfl, rfl⟩, rfl, rfl⟩

/-- The copy of a pool on the GPU has the directory but no cells; brought to the host its lists cannot be read.  Assignment does copy the cells. -/
theorem C436_gpu_copy_fails :
    run (start : State Nat) [.make, .push 0 [1], .toDevice 0 true, .copy 0, .toDevice 1 false] = .ub ∧
    (∃ s, run (start : State Nat) [.make, .push 0 [1], .toDevice 0 true, .make, .assign 1 0, .toDevice 1 false, .get 1 0] = .ok (s, [[[1]]])) :=
  ⟨rfl, ⟨_, rfl⟩⟩

/-- The copy on the GPU that belongs to a view is never released. -/
theorem C436_view_leak_fails :
    ∃ s, run (start : State Nat) [.make, .push 0 [1], .view 0, .gpuArrs 1, .destroy 1, .destroy 0] = .ok (s, [[[1]]]) ∧ s.objs = [none, none] ∧ s.host = [none] ∧
      s.dev = [some [some 1]] :=
  ⟨_, rfl, rfl, rfl, rfl⟩

/-! ### C437 equality -/

/-- After any program that the reference accepts, `operator==` tells whether two pools on the host have the same lists. -/
theorem C437_equal [DecidableEq α] (p : List (Cmd α)) (g : List (Option (PoolRef.Pool α))) (xs : List (List (List α))) (h : PoolRef.run [] p = .ok (g, xs)) (v w : Nat)
    (L M : List (List α)) (C D : Option (List (List α))) (hv : g[v]? = some (some ⟨some L, false, C⟩)) (hw : g[w]? = some (some ⟨some M, false, D⟩)) :
    ∃ s, run start p = .ok (s, xs) ∧ equal s v w = .ok (decide (L = M)) := by
  have := run_ok p (start_inv (α := α))
  rw [h] at this
  obtain ⟨s, h1, i⟩ := this
  exact ⟨s, h1, equal_ok i hv hw⟩

example : (∃ s, run (start : State Nat) [.make, .push 0 [1, 2], .push 0 [], .push 0 [3], .copy 0, .make, .push 2 [1], .push 2 [2, 3], .push 2 []] = .ok (s, []) ∧
    equal s 0 1 = .ok true ∧ equal s 0 2 = .ok false) := ⟨_, rfl, rfl, rfl⟩

/-! ### C438 visiting the lists -/

/-- After any program that the reference accepts, `as_vecs` gives the lists of a pool on the host, and `for_each` visits their elements in order, each with the number of its list. -/
theorem C438_visits (p : List (Cmd α)) (g : List (Option (PoolRef.Pool α))) (xs : List (List (List α))) (h : PoolRef.run [] p = .ok (g, xs)) (v : Nat)
    (L : List (List α)) (C : Option (List (List α))) (hv : g[v]? = some (some ⟨some L, false, C⟩)) :
    ∃ s, run start p = .ok (s, xs) ∧ asVecs s v = .ok L ∧ forEach s v = .ok (L.zipIdx.flatMap fun e => e.1.map fun a => (e.2, a)) := by
  have := run_ok p (start_inv (α := α))
  rw [h] at this
  obtain ⟨s, h1, i⟩ := this
  exact ⟨s, h1, asVecs_ok i hv, forEach_ok i hv⟩

example : (∃ s, run (start : State Nat) [.make, .push 0 [4, 5], .push 0 [], .push 0 [6]] = .ok (s, []) ∧ asVecs s 0 = .ok [[4, 5], [], [6]] ∧
    forEach s 0 = .ok [(0, 4), (0, 5), (2, 6)]) := ⟨_, rfl, rfl, rfl⟩

end Cnine
