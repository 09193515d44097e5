import Verif.Lemmas.IntMem

/-!
# Properties of the memory of integer tensors

C439 programs on integer tensors agree with lists of rows, without undefined behaviour and without leaks · C440 what the reference leaves out: assignments that leave released pointers
behind, the way back from the GPU, the stale array on the GPU, tensors moved away · C441 `operator==`.
-/

namespace Cnine

open IntMem

variable {α : Type}

/-! ### C439 programs on tensors -/

/-- A program that the reference accepts: same results, and each block in use belongs to a tensor in use. -/
theorem C439_programs (p : List (Cmd α)) (g : List (Option (IntRef.Ten α))) (xs : List (List (List α))) (h : IntRef.run [] p = .ok (g, xs)) :
    ∃ s, run start p = .ok (s, xs) ∧
      (∀ b, (∃ x, s.host[b]? = some (some x)) ↔ ∃ (v : Nat) (o : Obj), s.objs[v]? = some (some o) ∧ o.arr = some b) ∧
      (∀ b, (∃ x, s.dev[b]? = some (some x)) ↔ ∃ (v : Nat) (o : Obj), s.objs[v]? = some (some o) ∧ o.arrg = some b) := by
  have := run_ok p (s := start) (TwoHeaps.Inv.start (K := kind α))
  rw [h] at this
  obtain ⟨s, h1, i⟩ := this
  refine ⟨s, h1, fun b => ?_, fun b => ?_⟩
  · rw [← i.own.2 b, List.nil_append, List.mem_flatMap]
    constructor
    · rintro ⟨o, ho, hb⟩
      cases o with
      | none => cases hb
      | some o =>
        obtain ⟨v, hv⟩ := List.mem_iff_getElem?.mp ho
        exact ⟨v, o, hv, Option.mem_toList.mp hb⟩
    · rintro ⟨v, o, hv, hb⟩
      exact ⟨some o, List.mem_of_getElem? hv, Option.mem_toList.mpr hb⟩
  · rw [← i.ownd.2 b, List.nil_append, List.mem_flatMap]
    constructor
    · rintro ⟨o, ho, hb⟩
      cases o with
      | none => cases hb
      | some o =>
        obtain ⟨v, hv⟩ := List.mem_iff_getElem?.mp ho
        exact ⟨v, o, hv, Option.mem_toList.mp hb⟩
    · rintro ⟨v, o, hv, hb⟩
      exact ⟨some o, List.mem_of_getElem? hv, Option.mem_toList.mpr hb⟩

/-- A row of the wrong length is refused, in the machine as in the reference. -/
theorem C439_throws (p : List (Cmd α)) (h : IntRef.run [] p = .throw) : run (start : State α) p = .throw := by
  have := run_ok p (s := start) (TwoHeaps.Inv.start (K := kind α))
  rw [h] at this
  exact this

/-- When all tensors are gone, so is all memory. -/
theorem C439_no_leak (p : List (Cmd α)) (g : List (Option (IntRef.Ten α))) (xs : List (List (List α))) (h : IntRef.run [] p = .ok (g, xs)) (hg : ∀ r ∈ g, r = none) :
    ∃ s, run start p = .ok (s, xs) ∧ (∀ b ∈ s.host, b = none) ∧ ∀ b ∈ s.dev, b = none := by
  have := run_ok p (s := start) (TwoHeaps.Inv.start (K := kind α))
  rw [h] at this
  obtain ⟨s, h1, i⟩ := this
  exact ⟨s, h1, i.empty hg⟩

/-- A program with growth, a copy, a move, assignments, an array on the GPU made on demand, and the move to the GPU. -/
def tensorSample : List (Cmd Nat) :=
  [.make 2, .push 0 [1, 2], .push 0 [3, 4], .push 0 [5, 6], .copy 0, .set 1 0 1 7, .row 0 0, .row 1 0, .garr 1, .move 1, .assign 1 0, .row 1 2, .garr 2, .toDevice 2 true, .garr 2,
    .copy 2, .garr 3, .moveAssign 0 3, .destroy 0, .destroy 1, .destroy 2, .destroy 3]

example : (IntRef.run [] tensorSample = .ok ([none, none, none, none],
    [[[1, 2]], [[1, 7]], [[1, 7], [3, 4], [5, 6]], [[5, 6]], [[1, 7], [3, 4], [5, 6]], [[1, 7], [3, 4], [5, 6]], [[1, 7], [3, 4], [5, 6]]])) := by decide

example : (∃ s, run (start : State Nat) tensorSample = .ok (s,
    [[[1, 2]], [[1, 7]], [[1, 7], [3, 4], [5, 6]], [[5, 6]], [[1, 7], [3, 4], [5, 6]], [[1, 7], [3, 4], [5, 6]], [[1, 7], [3, 4], [5, 6]]])) := ⟨_, rfl⟩

example : (IntRef.run [] [Cmd.make 2, .push 0 [1]] = .throw) := by decide

/-! ### C440 what the reference leaves out -/

/-- A tensor assigned to itself, by copy or by move, has lost its rows. -/
theorem C440_self_fails :
    run (start : State Nat) [.make 1, .push 0 [1], .assign 0 0, .row 0 0] = .ub ∧ run (start : State Nat) [.make 1, .push 0 [1], .moveAssign 0 0, .row 0 0] = .ub :=
  ⟨rfl, rfl⟩

/-- A copy assigned to a tensor that has an array on the GPU releases that array but keeps the pointer: the next use reads released memory, and the destructor releases it again. -/
theorem C440_assign_fails :
    run (start : State Nat) [.make 1, .push 0 [1], .garr 0, .make 1, .push 1 [2], .assign 0 1, .garr 0] = .ub ∧
    run (start : State Nat) [.make 1, .push 0 [1], .garr 0, .make 1, .push 1 [2], .assign 0 1, .destroy 0] = .ub ∧
    (∃ s, run (start : State Nat) [.make 1, .push 0 [1], .garr 0, .make 1, .push 1 [2], .moveAssign 0 1, .garr 0, .destroy 0] = .ok (s, [[[1]], [[2]]])) :=
  ⟨rfl, rfl, _, rfl⟩

/-- The same across devices: a tensor on the GPU assigned to one on the host leaves the released pointer to the host; the destructor releases it again. -/
theorem C440_devices_fails :
    run (start : State Nat) [.make 1, .push 0 [1], .make 1, .push 1 [2], .toDevice 1 true, .assign 0 1, .destroy 0] = .ub ∧
    run (start : State Nat) [.make 1, .push 0 [1], .toDevice 0 true, .make 1, .push 1 [2], .assign 0 1, .destroy 0] = .ub ∧
    run (start : State Nat) [.make 1, .push 0 [1], .toDevice 0 true, .make 1, .push 1 [2], .toDevice 1 true, .assign 0 1, .destroy 0] = .ub :=
  ⟨rfl, rfl, rfl⟩

/-- To the GPU and back: the rows are right, but the released array on the GPU is released again by the destructor, and used by `get_arrg`. -/
theorem C440_back_fails :
    (∃ s, run (start : State Nat) [.make 1, .push 0 [1], .toDevice 0 true, .toDevice 0 false, .row 0 0] = .ok (s, [[[1]]])) ∧
    run (start : State Nat) [.make 1, .push 0 [1], .toDevice 0 true, .toDevice 0 false, .destroy 0] = .ub ∧
    run (start : State Nat) [.make 1, .push 0 [1], .toDevice 0 true, .toDevice 0 false, .garr 0] = .ub :=
  ⟨⟨_, rfl⟩, rfl, rfl⟩

/-- `get_arrg` gives what was sent first; a row appended since is not in it. -/
theorem C440_stale_fails :
    (∃ s, run (start : State Nat) [.make 1, .push 0 [1], .garr 0, .set 0 0 0 5, .row 0 0, .garr 0] = .ok (s, [[[1]], [[5]], [[1]]])) ∧
    run (start : State Nat) [.make 1, .push 0 [1], .garr 0, .push 0 [2], .garr 0] = .ub :=
  ⟨⟨_, rfl⟩, rfl⟩

/-- A tensor that was moved away keeps its size; neither reading nor appending is defined. -/
theorem C440_moved_fails :
    (∃ s o, run (start : State Nat) [.make 1, .push 0 [1], .move 0] = .ok (s, []) ∧ look s 0 = .ok o ∧ o.n = 1) ∧
    run (start : State Nat) [.make 1, .push 0 [1], .move 0, .row 0 0] = .ub ∧ run (start : State Nat) [.make 1, .push 0 [1], .move 0, .push 0 [2]] = .ub :=
  ⟨⟨_, _, rfl, rfl, rfl⟩, rfl, rfl⟩

/-- Appending to a tensor on the GPU writes to the null pointer of the host, or, if the tensor came from the host, to the old array there. -/
theorem C440_push_gpu_fails :
    run (start : State Nat) [.make 1, .push 0 [1], .toDevice 0 true, .copy 0, .push 1 [2]] = .ub ∧
    run (start : State Nat) [.make 1, .push 0 [1], .toDevice 0 true, .push 0 [2], .garr 0] = .ub :=
  ⟨rfl, rfl⟩

/-- A view may not grow beyond the array of its owner; while it fits, the row appended to the view and the next one appended to the owner share their cells. -/
theorem C440_view_fails :
    run (start : State Nat) [.make 1, .view 0, .push 1 [1]] = .throw ∧
    (∃ s, run (start : State Nat) [.make 1, .push 0 [1], .push 0 [2], .view 0, .push 1 [9], .row 1 2, .push 0 [5], .row 1 2] = .ok (s, [[[9]], [[5]]])) ∧
    run (start : State Nat) [.make 1, .push 0 [1], .view 0, .row 1 0, .destroy 0, .row 1 0] = .ub :=
  ⟨rfl, ⟨_, rfl⟩, rfl⟩

/-! ### C441 equality -/

/-- After any program that the reference accepts, `operator==` tells whether two tensors on the host have the same rows, when neither has spare capacity. -/
theorem C441_equal_partial [DecidableEq α] (p : List (Cmd α)) (g : List (Option (IntRef.Ten α))) (xs : List (List (List α))) (h : IntRef.run [] p = .ok (g, xs)) (v w k k' : Nat)
    (L M : List (List α)) (C D : Option (List (List α))) (hv : g[v]? = some (some ⟨k, some L, false, C⟩)) (hw : g[w]? = some (some ⟨k', some M, false, D⟩)) :
    ∃ s x y, run start p = .ok (s, xs) ∧ look s v = .ok x ∧ look s w = .ok y ∧ (x.cap = x.n → y.cap = y.n → equal s v w = .ok (decide (k = k' ∧ L = M))) := by
  have := run_ok p (s := start) (TwoHeaps.Inv.start (K := kind α))
  rw [h] at this
  obtain ⟨s, h1, i⟩ := this
  obtain ⟨x, hx, -⟩ := i.look hv
  obtain ⟨y, hy, -⟩ := i.look hw
  exact ⟨s, x, y, h1, look_eq hx, look_eq hy, fun c d => equal_ok i hv hw hx hy c d⟩

/-- Copies have no spare capacity: the rule is not empty. -/
example : (∃ s, run (start : State Nat) [.make 2, .push 0 [1, 2], .push 0 [3, 4], .copy 0, .copy 1, .copy 1, .set 3 1 1 5] = .ok (s, []) ∧
    equal s 1 2 = .ok true ∧ equal s 1 3 = .ok false) := ⟨_, rfl, rfl, rfl⟩

/-- The same rows with another capacity are called different; with the same capacity the unused cells are compared, which nobody has written. -/
theorem C441_capacity_fails :
    (∃ s, run (start : State Nat) [.make 1, .push 0 [1], .copy 0, .row 0 0, .row 1 0] = .ok (s, [[[1]], [[1]]]) ∧ equal s 0 1 = .ok false) ∧
    (∃ s, run (start : State Nat) [.make 1, .push 0 [1], .make 1, .push 1 [1]] = .ok (s, []) ∧ equal s 0 1 = .ub) :=
  ⟨⟨_, rfl, rfl⟩, _, rfl, rfl⟩

end Cnine
