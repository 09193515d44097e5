import Verif.Lemmas.Pool3

/-!
# C36, C37: array pools

`PoolSpec` (Verif/Spec/Pool.lean) says what a pool is meant to be: a list of rows.
-/

namespace Cnine

open PoolSpec

variable {α : Type _}

namespace Pool

/-- What the accessors of a pool return when it stands for `rows`: its size, the length and the room of
each row, each entry that was written, whole rows all of whose entries were written; an exception for row
or column numbers that are too large. -/
structure Reads (p : Pool α) (rows : List (Row α)) : Prop where
  size : p.size = rows.length
  sizeOf : ∀ i r, rows[i]? = some r → p.sizeOf (i : Nat) = .ok (r.cells.length : Int)
  room : ∀ i r, rows[i]? = some r → p.maxSizeOf (i : Nat) = .ok (r.room : Int)
  get : ∀ i r j v, rows[i]? = some r → r.cells[j]? = some (some v) → p.get (i : Nat) (j : Nat) = .ok v
  list : ∀ i r v, rows[i]? = some r → r.cells = v.map some → p.list (i : Nat) = .ok v
  noRow : ∀ i : Nat, rows.length ≤ i → (∀ j, p.get i j = .throw) ∧ p.list i = .throw ∧ p.sizeOf i = .throw
  noCol : ∀ i r (j : Nat), rows[i]? = some r → r.cells.length ≤ j → p.get (i : Nat) j = .throw

theorem Holds.reads {p : Pool α} {rows : List (Row α)} (h : p.Holds rows) : p.Reads rows := by
  have hs := Part.size h
  refine ⟨hs, fun i r hi => sizeOf_ok h hi, fun i r hi => maxSizeOf_ok h hi, ?_, ?_, ?_, ?_⟩
  · intro i r j v hi hv
    have hil := lt_of_get hi
    have hj : j < r.cells.length := (List.getElem?_eq_some_iff.mp hv).1
    unfold Pool.get
    rw [assrt_pos (by omega), Res.ok_bind, Part.len_at h hi, Res.ok_bind, assrt_pos (by omega), Res.ok_bind,
      Part.off_at h hi, Res.ok_bind]
    exact Arr.rd_ok' (k := off rows i + j) (by omega) (h.cells i r j v hi hv)
  · intro i r v hi hv
    have hil := lt_of_get hi
    unfold Pool.list
    rw [assrt_pos (by omega), Res.ok_bind, Part.off_at h hi, Res.ok_bind, Part.len_at h hi, Res.ok_bind,
      assrt_pos (by omega), Res.ok_bind, Int.toNat_natCast, hv, List.length_map]
    apply Arr.rdList_ok
    intro j x hx
    apply h.cells i r j x hi
    rw [hv, List.getElem?_map, hx]; rfl
  · intro i hi
    have hn : ¬ ((i : Int) < p.size) := by omega
    refine ⟨fun j => ?_, ?_, ?_⟩
    · unfold Pool.get; rw [assrt_neg hn]; rfl
    · unfold Pool.list; rw [assrt_neg hn]; rfl
    · unfold Pool.sizeOf; rw [assrt_neg hn]; rfl
  · intro i r j hi hj
    have hil := lt_of_get hi
    unfold Pool.get
    rw [assrt_pos (by omega), Res.ok_bind, Part.len_at h hi, Res.ok_bind, assrt_neg (by omega)]
    rfl

/-- One operation on the model. -/
def step : Op α → Pool α → Res (Pool α)
  | .pushLen n, p => p.pushLen n
  | .pushVec v, p => p.pushVec v
  | .set i j v, p => p.set i j v
  | .append i v, p => p.append i v
  | .copy, p => p.copy

/-- A history.  An operation that throws leaves the pool as it was: `set` and `append` test before they
write. -/
def exec : List (Op α) → Pool α → Res (Pool α × List Bool)
  | [], p => .ok (p, [])
  | o :: l, p =>
    match step o p with
    | .ok p' => exec l p' >>= fun r => .ok (r.1, true :: r.2)
    | .throw => exec l p >>= fun r => .ok (r.1, false :: r.2)
    | .ub => .ub

theorem step_spec (o : Op α) {p : Pool α} {rows : List (Row α)} (h : p.Holds rows) :
    (∀ rows', PoolSpec.step o rows = some rows' → ∃ p', step o p = .ok p' ∧ p'.Holds rows') ∧
    (PoolSpec.step o rows = none → step o p = .throw) := by
  have hs := Part.size h
  cases o with
  | pushLen n =>
    refine ⟨?_, by simp [PoolSpec.step]⟩
    rintro rows' ⟨⟩
    exact pushLen_ok h n
  | pushVec v =>
    refine ⟨?_, by simp [PoolSpec.step]⟩
    rintro rows' ⟨⟩
    exact pushVec_ok h v
  | copy =>
    refine ⟨?_, by simp [PoolSpec.step]⟩
    rintro rows' ⟨⟩
    exact copy_ok h
  | set i j v =>
    cases hi : rows[i]? with
    | none =>
      have hl : rows.length ≤ i := List.getElem?_eq_none_iff.mp hi
      refine ⟨by simp [PoolSpec.step, hi], fun _ => ?_⟩
      simp only [step, Pool.set]
      rw [assrt_neg (by omega)]; rfl
    | some r =>
      have hil := lt_of_get hi
      by_cases hj : j < r.cells.length
      · simp only [PoolSpec.step, hi, if_pos hj]
        refine ⟨?_, by simp⟩
        rintro rows' ⟨⟩
        exact set_ok h hi hj v
      · simp only [PoolSpec.step, hi, if_neg hj]
        refine ⟨by simp, fun _ => ?_⟩
        simp only [step, Pool.set]
        rw [assrt_pos (by omega), Res.ok_bind, Part.len_at h hi, Res.ok_bind, assrt_neg (by omega)]; rfl
  | append i v =>
    cases hi : rows[i]? with
    | none =>
      have hl : rows.length ≤ i := List.getElem?_eq_none_iff.mp hi
      refine ⟨by simp [PoolSpec.step, hi], fun _ => ?_⟩
      simp only [step, Pool.append]
      rw [assrt_neg (by omega)]; rfl
    | some r =>
      have hil := lt_of_get hi
      by_cases hj : r.cells.length < r.room
      · simp only [PoolSpec.step, hi, if_pos hj]
        refine ⟨?_, by simp⟩
        rintro rows' ⟨⟩
        exact append_ok h hi hj v
      · simp only [PoolSpec.step, hi, if_neg hj]
        refine ⟨by simp, fun _ => ?_⟩
        simp only [step, Pool.append]
        rw [assrt_pos (by omega), Res.ok_bind, sizeOf_ok h hi, Res.ok_bind, maxSizeOf_ok h hi, Res.ok_bind,
          assrt_neg (by omega)]; rfl

theorem exec_spec (ops : List (Op α)) : ∀ {p : Pool α} {rows : List (Row α)}, p.Holds rows →
    ∃ p', exec ops p = .ok (p', (PoolSpec.run ops rows).2) ∧ p'.Holds (PoolSpec.run ops rows).1 := by
  induction ops with
  | nil => intro p rows h; exact ⟨p, rfl, h⟩
  | cons o l ih =>
    intro p rows h
    obtain ⟨h1, h2⟩ := step_spec o h
    cases hs : PoolSpec.step o rows with
    | some rows' =>
      obtain ⟨p1, e1, e2⟩ := h1 rows' hs
      obtain ⟨p2, f1, f2⟩ := ih e2
      refine ⟨p2, ?_, ?_⟩
      · simp only [exec, e1, PoolSpec.run, hs, f1, Res.ok_bind]
      · simpa only [PoolSpec.run, hs] using f2
    | none =>
      obtain ⟨p2, f1, f2⟩ := ih h
      refine ⟨p2, ?_, ?_⟩
      · simp only [exec, h2 hs, PoolSpec.run, hs, f1, Res.ok_bind]
      · simpa only [PoolSpec.run, hs] using f2

/-! ## C36 -/

/-- C36: any history of appends by length, by vector, writes, element appends and copies, starting from an
empty pool, never runs into undefined behaviour, throws exactly for the operations that are not allowed on
the list of lists, and leaves a pool that reads back as that list of lists. -/
theorem C36_history (ops : List (Op α)) :
    ∃ p, exec ops Pool.empty = .ok (p, (PoolSpec.run ops []).2) ∧ p.Reads (PoolSpec.run ops []).1 := by
  obtain ⟨p, h1, h2⟩ := exec_spec ops (holds_empty (α := α))
  exact ⟨p, h1, h2.reads⟩

theorem fillDir_ok (m : Nat) (t : List (Row α)) : ∀ (k i : Nat) (d : Dir) (n : Nat), d.Fits n → i + k ≤ n →
    (∀ l < i, d.arr[2 * l]? = some (some ((l * m : Nat) : Int)) ∧ d.arr[2 * l + 1]? = some (some (m : Int))) →
    ∃ d', fillDir m i k d = .ok d' ∧ d'.Fits n ∧
      ∀ l < i + k, d'.arr[2 * l]? = some (some ((l * m : Nat) : Int)) ∧
        d'.arr[2 * l + 1]? = some (some (m : Int)) := by
  intro k
  induction k with
  | zero => intro i d n hd _ h; exact ⟨d, rfl, hd, h⟩
  | succ k ih =>
    intro i d n hd hn h
    obtain ⟨d1, e1, e2, e3, e4, e5⟩ := Dir.set2_ok ((i : Int) * m) m hd (show i < n by omega)
    obtain ⟨d2, f1, f2, f3⟩ := ih (i + 1) d1 n e2 (by omega) (by
      intro l hl
      by_cases c : l = i
      · subst c
        rw [e3, e4]; exact ⟨by simp, rfl⟩
      · rw [e5 _ (by omega) (by omega), e5 _ (by omega) (by omega)]
        exact h l (by omega))
    refine ⟨d2, ?_, f2, fun l hl => f3 l (by omega)⟩
    obtain ⟨d3, g1, g2⟩ := Res.bind_eq_ok.mp e1
    show (d.set i 0 (i * m) >>= fun d => d.set i 1 m >>= fun d => fillDir m (i + 1) k d) = _
    rw [g1, Res.ok_bind, g2, Res.ok_bind]
    exact f1

theorem off_replicate (n m k : Nat) (c : List (Option α)) (h : k ≤ n) :
    off (List.replicate n ⟨m, c⟩) k = k * m := by
  unfold off
  rw [List.take_replicate, List.map_replicate, List.sum_replicate_nat, Nat.min_eq_left h]

theorem ofShape_ok (n m : Nat) :
    ∃ p : Pool α, ofShape n m = .ok p ∧ p.Holds (List.replicate n ⟨m, List.replicate m none⟩) := by
  obtain ⟨d, e1, e2, e3⟩ := fillDir_ok (α := α) m [] n 0 (Dir.raw n) n (Dir.fits_raw n) (by omega)
    (by intro l hl; omega)
  refine ⟨⟨Arr.alloc ((n : Int) * m), (n : Int) * m, (n : Int) * m, d⟩, ?_, ?_⟩
  · unfold ofShape
    have e1' : fillDir (m : Int) 0 n (Dir.raw n) = .ok d := e1
    rw [Int.toNat_natCast, e1']; rfl
  · have hr : ∀ k r, (List.replicate n (⟨m, List.replicate m none⟩ : Row α))[k]? = some r →
        k < n ∧ r = ⟨m, List.replicate m none⟩ := by
      intro k r h
      rw [List.getElem?_replicate] at h
      split at h
      · next hk => exact ⟨hk, by simpa using h.symm⟩
      · cases h
    refine ⟨by simpa using e2, Nat.le_refl _, ?_, Int.le_refl _, ?_, ?_, ?_, ?_, ?_⟩
    · rw [List.length_replicate, off_replicate _ _ _ _ (Nat.le_refl _)]; simp
    · dsimp only; rw [Arr.length_alloc]; omega
    · intro r h
      rw [(List.mem_replicate.mp h).2]; simp
    · intro k r h
      obtain ⟨hk, rfl⟩ := hr k r h
      rw [off_replicate _ _ _ _ (by omega)]
      exact (e3 k (by omega)).1
    · intro k r h
      obtain ⟨hk, rfl⟩ := hr k r h
      simpa using (e3 k (by omega)).2
    · intro k r j v h hv
      obtain ⟨hk, rfl⟩ := hr k r h
      dsimp only at hv
      rw [List.getElem?_replicate] at hv
      split at hv <;> simp at hv

/-- C36, starting from the constructor `array_pool(n,m)`: `n` rows of `m` unwritten entries. -/
theorem C36_history_shape (n m : Nat) (ops : List (Op α)) :
    ∃ p0 p, ofShape n m = .ok p0 ∧
      exec ops p0 = .ok (p, (PoolSpec.run ops (List.replicate n ⟨m, List.replicate m none⟩)).2) ∧
      p.Reads (PoolSpec.run ops (List.replicate n ⟨m, List.replicate m none⟩)).1 := by
  obtain ⟨p0, h0, h1⟩ := ofShape_ok (α := α) n m
  obtain ⟨p, h2, h3⟩ := exec_spec ops h1
  exact ⟨p0, p, h0, h2, h3.reads⟩

/-- A history that grows both the memory and the directory, with two rejected operations. -/
def exOps : List (Op Int) :=
  [.pushVec [3, 1], .pushLen 2, .set 1 0 7, .set 1 1 8, .set 0 2 5, .pushVec [], .pushVec [9, 9, 9],
    .set 3 2 4, .copy, .append 0 6, .pushVec [2]]

example : PoolSpec.run exOps [] =
    ([⟨2, [some 3, some 1]⟩, ⟨2, [some 7, some 8]⟩, ⟨0, []⟩, ⟨3, [some 9, some 9, some 4]⟩, ⟨1, [some 2]⟩],
     [true, true, true, true, false, true, true, true, true, false, true]) := by decide

example : (exec exOps Pool.empty >>= fun r => r.1.list 3) = .ok [9, 9, 4] := by decide

/-- C36 is false for negative arguments, which are `int` and not tested: `set(1,-1,v)` overwrites the last
entry of row 0. -/
theorem C36_negative_index_fails :
    ∃ p p' : Pool Int, exec [.pushVec [1, 2], .pushVec [3]] Pool.empty = .ok (p, [true, true]) ∧
      p.list 0 = .ok [1, 2] ∧ p.set 1 (-1) 5 = .ok p' ∧ p'.list 0 = .ok [1, 5] ∧ p.get 0 (-1) = .ub ∧
      p.get (-1) 0 = .ub := by
  refine ⟨⟨[some 1, some 2, some 3, none], 4, 3, ⟨2, 8, [some 0, some 2, some 2, some 1, none, none, none, none]⟩⟩,
    ⟨[some 1, some 5, some 3, none], 4, 3, ⟨2, 8, [some 0, some 2, some 2, some 1, none, none, none, none]⟩⟩, ?_⟩
  decide

/-- C36 is false for a negative length: after `push_back(-1)` the next list overlaps list 0. -/
theorem C36_negative_length_fails :
    ∃ p p' p'' : Pool Int, exec [.pushVec [1, 2]] Pool.empty = .ok (p, [true]) ∧ p.pushLen (-1) = .ok p' ∧
      p'.pushVec [7] = .ok p'' ∧ p''.list 0 = .ok [1, 7] := by
  refine ⟨⟨[some 1, some 2], 2, 2, ⟨1, 4, [some 0, some 2, none, none]⟩⟩,
    ⟨[some 1, some 2], 2, 1, ⟨2, 8, [some 0, some 2, some 2, some (-1), none, none, none, none]⟩⟩,
    ⟨[some 1, some 7], 2, 2, ⟨3, 8, [some 0, some 2, some 2, some (-1), some 1, some 1, none, none]⟩⟩, ?_⟩
  decide

/-- Element append never succeeds on a row made by `push_back(len)` or `push_back(vector)`: such rows have
no spare room. -/
theorem C36_append_no_room (ops : List (Op α)) (i : Nat) (v : α) {p : Pool α} {fl : List Bool}
    (h : exec ops Pool.empty = .ok (p, fl)) : p.append i v = .throw := by
  obtain ⟨p', h1, h2⟩ := exec_spec ops (holds_empty (α := α))
  rw [h] at h1
  obtain ⟨rfl, -⟩ : p = p' ∧ _ := by simpa using h1
  have full : ∀ (ops : List (Op α)) (rows : List (Row α)), (∀ r ∈ rows, r.cells.length = r.room) →
      ∀ r ∈ (PoolSpec.run ops rows).1, r.cells.length = r.room := by
    intro ops
    induction ops with
    | nil => intro rows h; exact h
    | cons o l ih =>
      intro rows hf
      have hstep : ∀ rows', PoolSpec.step o rows = some rows' → ∀ r ∈ rows', r.cells.length = r.room := by
        intro rows' hr
        cases o with
        | pushLen n =>
          cases hr
          intro r hr
          rcases List.mem_append.mp hr with hr | hr
          · exact hf r hr
          · rw [List.mem_singleton.mp hr]; simp
        | pushVec n =>
          cases hr
          intro r hr
          rcases List.mem_append.mp hr with hr | hr
          · exact hf r hr
          · rw [List.mem_singleton.mp hr]; simp [Row.full]
        | copy => cases hr; exact hf
        | set a b v =>
          simp only [PoolSpec.step] at hr
          cases ha : rows[a]? with
          | none => rw [ha] at hr; cases hr
          | some s =>
            rw [ha] at hr
            dsimp only at hr
            split at hr
            · cases hr
              intro r hr
              rcases List.mem_or_eq_of_mem_set hr with hr | hr
              · exact hf r hr
              · rw [hr]; simpa using hf s (List.mem_of_getElem? ha)
            · cases hr
        | append a v =>
          simp only [PoolSpec.step] at hr
          cases ha : rows[a]? with
          | none => rw [ha] at hr; cases hr
          | some s =>
            rw [ha] at hr
            dsimp only at hr
            have := hf s (List.mem_of_getElem? ha)
            rw [if_neg (by omega)] at hr
            cases hr
      cases hs : PoolSpec.step o rows with
      | some rows' =>
        simp only [PoolSpec.run, hs]
        exact ih rows' (hstep rows' hs)
      | none =>
        simp only [PoolSpec.run, hs]
        exact ih rows hf
  refine (step_spec (.append i v) h2).2 ?_
  simp only [PoolSpec.step]
  cases hi : (PoolSpec.run ops []).1[i]? with
  | none => rfl
  | some r =>
    have := full ops [] (by simp) r (List.mem_of_getElem? hi)
    dsimp only
    rw [if_neg (by omega)]

end Pool

end Cnine
