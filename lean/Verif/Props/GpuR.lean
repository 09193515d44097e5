import Verif.Lemmas.GpuR
import Mathlib.Tactic.Ring
import Mathlib.Algebra.BigOperators.Group.Finset.Basic
import Mathlib.Algebra.BigOperators.Intervals

/-!
# What the kernels for views with one, two and three axes do
-/

namespace Cnine

open Gpu

variable {α : Type}

/-! ### C403: threads with cells of their own -/

/-- However the threads of a launch are interleaved: if every thread writes only cells of its own, which no other thread reads or writes, and would do well alone, then the launch
ends, each cell of a thread holds what that thread would have put there alone, and no other cell has changed. -/
theorem C403_no_races (l : Launch α) (m : Buf α) (hv : l.valid = true) (R W : D3 × D3 → Nat → Prop) (F : D3 × D3 → Buf α)
    (hin : ∀ q ∈ l.ids, Within (R q) (W q) (l.kern q.1 q.2)) (hsep : ∀ q ∈ l.ids, ∀ q' ∈ l.ids, q ≠ q' → ∀ p, W q p → ¬ W q' p ∧ ¬ R q' p)
    (hrun : ∀ q ∈ l.ids, (l.kern q.1 q.2).run m = .ok (F q, ())) :
    Ends [l] m fun m' => (∀ q ∈ l.ids, ∀ p, W q p → m' p = F q p) ∧ ∀ p, (∀ q ∈ l.ids, ¬ W q p) → m' p = m p := Ends.own hv R W F hin hsep hrun

/-- Any launches, with races or not, change only cells that some thread may write. -/
theorem C403_only_written (W : Nat → Prop) (ls : List (Launch α)) (hw : ∀ l ∈ ls, ∀ q ∈ l.ids, Within (fun _ => True) W (l.kern q.1 q.2)) (m m' : Buf α) (h : Out ls m (.ok m')) :
    ∀ p, ¬ W p → m' p = m p := out_frame W ls hw m m' h

/-- Two threads that add to the same cell. -/
def Gpu.racing : Launch Nat := ⟨⟨1, 1, 1⟩, ⟨2, 1, 1⟩, fun _ _ => Thr.inc 0 1⟩

/-- Without cells of their own the order matters: one of the two additions can get lost. -/
theorem C403_races (m : Buf Nat) (h : m 0 = some 5) : (∃ m', Out [racing] m (.ok m') ∧ m' 0 = some 7) ∧ ∃ m', Out [racing] m (.ok m') ∧ m' 0 = some 6 := by
  have hs : racing.start = [Thr.inc 0 1, Thr.inc 0 1] := rfl
  have ho : ∀ sched : List Nat, ∀ m', exec sched (m, racing.start) = .ok (m', [.ret (), .ret ()]) → Out [racing] m (.ok m') := fun sched m' he =>
    .ran rfl sched m' _ he (fun t ht => by simp only [List.mem_cons, List.not_mem_nil, or_false, or_self] at ht; rw [ht]; rfl) (.nil m')
  refine ⟨⟨_, ho [0, 0, 1, 1] (fun q => if q = 0 then some 7 else if q = 0 then some 6 else m q) ?_, rfl⟩, ⟨_, ho [0, 1, 0, 1] (fun q => if q = 0 then some 6 else if q = 0 then some 6 else m q) ?_, rfl⟩⟩ <;>
  · rw [hs]
    simp [exec, step, Thr.inc, Thr.rd, Thr.wr, h, bind, Thr.bind, Res.bind]

/-- The threads of a launch that add 1 to two cells meet the conditions. -/
example (m : Buf Nat) (h0 : m 0 = some 5) (h1 : m 1 = some 9) : Ends [(⟨⟨1, 1, 1⟩, ⟨2, 1, 1⟩, fun _ t => Thr.inc t.x 1⟩ : Launch Nat)] m fun m' => m' 0 = some 6 ∧ m' 1 = some 10 := by
  have hid : (⟨⟨1, 1, 1⟩, ⟨2, 1, 1⟩, fun _ t => Thr.inc t.x 1⟩ : Launch Nat).ids = [(⟨0, 0, 0⟩, ⟨0, 0, 0⟩), (⟨0, 0, 0⟩, ⟨1, 0, 0⟩)] := rfl
  refine (C403_no_races _ m rfl (fun _ _ => False) (fun q p => p = q.2.x) (fun q p => if p = q.2.x then some (if q.2.x = 0 then 6 else 10) else m p) ?_ ?_ ?_).imp fun m' h => ?_
  · exact fun q _ => Within.inc rfl
  · rw [hid]
    intro q hq q' hq' hne p hp
    simp only [List.mem_cons, List.not_mem_nil, or_false] at hq hq'
    refine ⟨?_, fun h => h⟩
    rcases hq with rfl | rfl <;> rcases hq' with rfl | rfl <;> simp_all
  · rw [hid]
    intro q hq
    simp only [List.mem_cons, List.not_mem_nil, or_false] at hq
    rcases hq with rfl | rfl
    · exact Thr.run_inc 1 h0
    · exact Thr.run_inc 1 h1
  · exact ⟨(h.1 (⟨0, 0, 0⟩, ⟨0, 0, 0⟩) (by rw [hid]; simp) 0 rfl), (h.1 (⟨0, 0, 0⟩, ⟨1, 0, 0⟩) (by rw [hid]; simp) 1 rfl)⟩

/-! ### C404, C405: copying and adding matrices -/

theorem mat2_core [Add α] [Mul α] (k : Kind α) (r x : RV2) (m : Buf α) (a b : Nat × Nat → α) (h0 : x.n0 ≤ 2147483647) (h1 : x.n1 ≤ 2147483647) (hs : x.n0 ≤ 1024 ∨ x.n1 ≤ 65535)
    (h : Meets m (box2 x.n0 x.n1) (fun q => r.cell q.1 q.2) (fun q => x.cell q.1 q.2) a b) :
    Ends (mat2 k r x) m fun m' => Upd m m' (box2 x.n0 x.n1) (fun q => r.cell q.1 q.2) fun q => k.val (a q) (b q) := by
  rw [mat2]
  split
  · rename_i e
    refine Ends.kind k (idx := fun q => (q.2.x, q.2.y)) h (covers_box _ _ _ _ _ (fun i => (⟨0, 0, 0⟩, ⟨i.1, i.2, 0⟩)) ?_ ?_ ?_ ?_ ?_ ?_ ?_ ?_) fun q _ => ?_
    all_goals try box
    dsimp only [kTT, RV2.cell]; congr 2 <;> ring
  · split
    · refine Ends.kind k (idx := fun q => (q.1.x, q.2.x)) h (covers_box _ _ _ _ _ (fun i => (⟨i.1, 0, 0⟩, ⟨i.2, 0, 0⟩)) ?_ ?_ ?_ ?_ ?_ ?_ ?_ ?_) fun q _ => ?_
      all_goals try box
      dsimp only [kBT, RV2.cell]; congr 2 <;> ring
    · split
      · refine Ends.kind k (idx := fun q => (q.2.x, q.1.x)) h (covers_box _ _ _ _ _ (fun i => (⟨i.2, 0, 0⟩, ⟨i.1, 0, 0⟩)) ?_ ?_ ?_ ?_ ?_ ?_ ?_ ?_) fun q _ => ?_
        all_goals try box
        dsimp only [kBT, RV2.cell]; congr 2 <;> ring
      · refine Ends.kind k (idx := fun q => (q.1.x, q.1.y)) h (covers_box _ _ _ _ _ (fun i => (⟨i.1, i.2, 0⟩, ⟨0, 0, 0⟩)) ?_ ?_ ?_ ?_ ?_ ?_ ?_ ?_) fun q _ => ?_
        all_goals try box
        dsimp only [kBB, RV2.cell]; congr 2 <;> ring


/-- Copying a matrix on the GPU gives every entry of the target the value of that of the source and changes nothing else, in any order of the threads. -/
theorem C404_copy [Add α] [Mul α] (r x : RV2) (m : Buf α) (a b : Nat × Nat → α) (h0 : x.n0 ≤ 2147483647) (h1 : x.n1 ≤ 2147483647) (hs : x.n0 ≤ 1024 ∨ x.n1 ≤ 65535)
    (h : Meets m (fun q : Nat × Nat => q.1 < x.n0 ∧ q.2 < x.n1) (fun q => r.cell q.1 q.2) (fun q => x.cell q.1 q.2) a b) :
    Ends (mat2 .copy r x) m fun m' => Upd m m' (fun q : Nat × Nat => q.1 < x.n0 ∧ q.2 < x.n1) (fun q => r.cell q.1 q.2) b := mat2_core .copy r x m a b h0 h1 hs h

/-- Adding a matrix. -/
theorem C404_add [Add α] [Mul α] (r x : RV2) (m : Buf α) (a b : Nat × Nat → α) (h0 : x.n0 ≤ 2147483647) (h1 : x.n1 ≤ 2147483647) (hs : x.n0 ≤ 1024 ∨ x.n1 ≤ 65535)
    (h : Meets m (fun q : Nat × Nat => q.1 < x.n0 ∧ q.2 < x.n1) (fun q => r.cell q.1 q.2) (fun q => x.cell q.1 q.2) a b) :
    Ends (mat2 .add r x) m fun m' => Upd m m' (fun q : Nat × Nat => q.1 < x.n0 ∧ q.2 < x.n1) (fun q => r.cell q.1 q.2) fun q => a q + b q := mat2_core .add r x m a b h0 h1 hs h

/-- Adding a multiple of a matrix. -/
theorem C404_add_scaled [Add α] [Mul α] (r x : RV2) (c : α) (m : Buf α) (a b : Nat × Nat → α) (h0 : x.n0 ≤ 2147483647) (h1 : x.n1 ≤ 2147483647) (hs : x.n0 ≤ 1024 ∨ x.n1 ≤ 65535)
    (h : Meets m (fun q : Nat × Nat => q.1 < x.n0 ∧ q.2 < x.n1) (fun q => r.cell q.1 q.2) (fun q => x.cell q.1 q.2) a b) :
    Ends (mat2 (.addL c) r x) m fun m' => Upd m m' (fun q : Nat × Nat => q.1 < x.n0 ∧ q.2 < x.n1) (fun q => r.cell q.1 q.2) fun q => a q + c * b q :=
  mat2_core (.addL c) r x m a b h0 h1 hs h

/-- A compact matrix and a transposed one. -/
example : Meets (fun p => some (p : Int)) (fun q : Nat × Nat => q.1 < 40 ∧ q.2 < 30) (fun q => (⟨0, 40, 30, 30, 1⟩ : RV2).cell q.1 q.2) (fun q => (⟨1200, 40, 30, 1, 40⟩ : RV2).cell q.1 q.2)
    (fun q => (30 * q.1 + q.2 : Nat)) (fun q => (1200 + q.1 + 40 * q.2 : Nat)) := by
  refine ⟨?_, ?_, ?_, ?_⟩
  · rintro ⟨i, j⟩ ⟨i', j'⟩ h h' e
    simp only [RV2.cell] at h h' e
    simp only [Prod.mk.injEq]
    omega
  · rintro ⟨i, j⟩ ⟨i', j'⟩ h h' e
    simp only [RV2.cell] at h h' e
    omega
  · rintro ⟨i, j⟩ h
    simp only [RV2.cell, Option.some.injEq]
    push_cast
    ring
  · rintro ⟨i, j⟩ h
    simp only [RV2.cell, Option.some.injEq]
    push_cast
    ring

theorem ends_skip {l : Launch α} (m : Buf α) (h : l.valid = false) : Ends [l] m fun m' => m' = m := Ends.skip h (Ends.nil rfl)

/-- A matrix with more than 1024 rows and more than 65535 columns is not copied or added at all: the launch has too many blocks, and the error is not looked at. -/
theorem C405_large_fails [Add α] [Mul α] (k : Kind α) (r x : RV2) (m : Buf α) (h0 : 1024 < x.n0) (h1 : 65535 < x.n1) : Ends (mat2 k r x) m fun m' => m' = m := by
  have h2 : 1024 < x.n0 * x.n1 := by
    have := Nat.mul_le_mul (Nat.le_of_lt h0) (show 1 ≤ x.n1 by omega)
    have := Nat.mul_le_mul (show 1025 ≤ x.n0 by omega) (show 1 ≤ x.n1 by omega)
    omega
  rw [mat2, if_neg (by omega), if_neg (by omega), if_neg (by omega)]
  refine ends_skip m ?_
  rw [← Bool.not_eq_true, valid_iff]
  dsimp only
  omega

example : 1024 < (⟨0, 1025, 65536, 65536, 1⟩ : RV2).n0 ∧ 65535 < (⟨0, 1025, 65536, 65536, 1⟩ : RV2).n1 := by decide

/-! ### C406: copying and adding vectors -/

/-- Copying (or adding) a vector on the GPU does so for the first `n0/1024*1024` entries, and for no others. -/
theorem C406_vector_partial [Add α] [Mul α] (k : Kind α) (r x : RV1) (m : Buf α) (a b : Nat → α) (h0 : x.n0 ≤ 2147483647) (h : Meets m (fun i => i < x.n0) r.cell x.cell a b) :
    Ends (vec1 k r x) m fun m' => Upd m m' (fun i => i < x.n0 / 1024 * 1024) r.cell fun i => k.val (a i) (b i) := by
  have hi : ∀ n (kern : D3 → D3 → Thr α Unit), (⟨⟨0, 1, 1⟩, ⟨n, 1, 1⟩, kern⟩ : Launch α).valid = false := fun n kern => by
    rw [← Bool.not_eq_true, valid_iff]
    dsimp only
    omega
  rw [vec1]
  split
  · refine Ends.skip (hi _ _) (Ends.nil ⟨fun i hi => absurd hi (by omega), fun _ _ => rfl⟩)
  · have hm : Meets m (fun i => i < x.n0 / 1024 * 1024) r.cell x.cell a b := ⟨fun i j hi hj => h.inj i j (by omega) (by omega), fun i j hi hj => h.apart i j (by omega) (by omega),
      fun i hi => h.rval i (by omega), fun i hi => h.xval i (by omega)⟩
    refine (Ends.kind k (idx := fun q => q.1.x * 1024 + q.2.x) hm (covers_box _ _ _ _ _ (fun i => (⟨i / 1024, 0, 0⟩, ⟨i % 1024, 0, 0⟩)) ?_ ?_ ?_ ?_ ?_ ?_ ?_ ?_) fun q _ => ?_).seq
      fun m' hu => Ends.skip (hi _ _) (Ends.nil hu)
    all_goals try box
    dsimp only [kBT, RV1.cell]; congr 2 <;> ring

/-- So a vector with a multiple of 1024 entries is copied. -/
theorem C406_multiple_partial [Add α] [Mul α] (r x : RV1) (m : Buf α) (a b : Nat → α) (h0 : x.n0 ≤ 2147483647) (hd : x.n0 % 1024 = 0) (h : Meets m (fun i => i < x.n0) r.cell x.cell a b) :
    Ends (vec1 .copy r x) m fun m' => Upd m m' (fun i => i < x.n0) r.cell b := by
  have e : x.n0 / 1024 * 1024 = x.n0 := by omega
  have := C406_vector_partial .copy r x m a b h0 h
  rw [e] at this
  exact this

/-- And a shorter one is not: nothing happens. -/
theorem C406_short_fails [Add α] [Mul α] (k : Kind α) (r x : RV1) (m : Buf α) (h : x.n0 < 1024) : Ends (vec1 k r x) m fun m' => m' = m := by
  rw [vec1, if_pos h]
  refine ends_skip m ?_
  rw [← Bool.not_eq_true, valid_iff]
  dsimp only
  omega

example : Meets (fun p => some (p : Int)) (fun i => i < 2048) (⟨0, 2048, 2⟩ : RV1).cell (⟨1, 2048, 2⟩ : RV1).cell (fun i => (2 * i : Nat)) (fun i => (1 + 2 * i : Nat)) := by
  refine ⟨fun i j hi hj e => ?_, fun i j hi hj e => ?_, fun i _ => ?_, fun i _ => ?_⟩ <;> simp only [RV1.cell, Option.some.injEq] at * <;> (try push_cast) <;> omega

/-! ### C407, C408: copying and adding tensors with three axes -/

theorem ten3_core [Add α] [Mul α] (k : Kind α) (r x : RV3) (m : Buf α) (a b : Nat × Nat × Nat → α) (h0 : x.n0 ≤ 2147483647) (h1 : x.n1 ≤ 2147483647) (h2 : x.n2 ≤ 2147483647)
    (hz : x.n0 * x.n1 * x.n2 ≤ 1024 → x.n2 ≤ 64) (hs : x.n1 * x.n2 ≤ 1024 ∨ x.n0 * x.n2 ≤ 1024 ∨ x.n0 * x.n1 ≤ 1024)
    (h : Meets m (box3 x.n0 x.n1 x.n2) (fun q => r.cell q.1 q.2.1 q.2.2) (fun q => x.cell q.1 q.2.1 q.2.2) a b) :
    Ends (ten3 k r x) m fun m' => Upd m m' (box3 x.n0 x.n1 x.n2) (fun q => r.cell q.1 q.2.1 q.2.2) fun q => k.val (a q) (b q) := by
  rw [ten3]
  split
  · refine Ends.kind k (idx := fun q => (q.2.x, q.2.y, q.2.z)) h (covers_box _ _ _ _ _ (fun i => (⟨0, 0, 0⟩, ⟨i.1, i.2.1, i.2.2⟩)) ?_ ?_ ?_ ?_ ?_ ?_ ?_ ?_) fun q _ => ?_
    all_goals try box
    dsimp only [kTTT, RV3.cell]; congr 2 <;> ring
  · split
    · refine Ends.kind k (idx := fun q => (q.1.x, q.2.x, q.2.y)) h (covers_box _ _ _ _ _ (fun i => (⟨i.1, 0, 0⟩, ⟨i.2.1, i.2.2, 0⟩)) ?_ ?_ ?_ ?_ ?_ ?_ ?_ ?_) fun q _ => ?_
      all_goals try box
      dsimp only [kBTT, RV3.cell]; congr 2 <;> ring
    · split
      · refine Ends.kind k (idx := fun q => (q.2.x, q.1.x, q.2.y)) h (covers_box _ _ _ _ _ (fun i => (⟨i.2.1, 0, 0⟩, ⟨i.1, i.2.2, 0⟩)) ?_ ?_ ?_ ?_ ?_ ?_ ?_ ?_) fun q _ => ?_
        all_goals try box
        dsimp only [kBTT, RV3.cell]; congr 2 <;> ring
      · rw [if_pos (by omega)]
        refine Ends.kind k (idx := fun q => (q.2.x, q.2.y, q.1.x)) h (covers_box _ _ _ _ _ (fun i => (⟨i.2.2, 0, 0⟩, ⟨i.1, i.2.1, 0⟩)) ?_ ?_ ?_ ?_ ?_ ?_ ?_ ?_) fun q _ => ?_
        all_goals try box
        dsimp only [kBTT, RV3.cell]; congr 2 <;> ring

/-- Copying a tensor with three axes on the GPU, if two of the sizes have a product of at most 1024 (and the last is at most 64 if all three have). -/
theorem C407_copy [Add α] [Mul α] (r x : RV3) (m : Buf α) (a b : Nat × Nat × Nat → α) (h0 : x.n0 ≤ 2147483647) (h1 : x.n1 ≤ 2147483647) (h2 : x.n2 ≤ 2147483647)
    (hz : x.n0 * x.n1 * x.n2 ≤ 1024 → x.n2 ≤ 64) (hs : x.n1 * x.n2 ≤ 1024 ∨ x.n0 * x.n2 ≤ 1024 ∨ x.n0 * x.n1 ≤ 1024)
    (h : Meets m (fun q : Nat × Nat × Nat => q.1 < x.n0 ∧ q.2.1 < x.n1 ∧ q.2.2 < x.n2) (fun q => r.cell q.1 q.2.1 q.2.2) (fun q => x.cell q.1 q.2.1 q.2.2) a b) :
    Ends (ten3 .copy r x) m fun m' => Upd m m' (fun q : Nat × Nat × Nat => q.1 < x.n0 ∧ q.2.1 < x.n1 ∧ q.2.2 < x.n2) (fun q => r.cell q.1 q.2.1 q.2.2) b :=
  ten3_core .copy r x m a b h0 h1 h2 hz hs h

/-- Adding. -/
theorem C407_add [Add α] [Mul α] (r x : RV3) (m : Buf α) (a b : Nat × Nat × Nat → α) (h0 : x.n0 ≤ 2147483647) (h1 : x.n1 ≤ 2147483647) (h2 : x.n2 ≤ 2147483647)
    (hz : x.n0 * x.n1 * x.n2 ≤ 1024 → x.n2 ≤ 64) (hs : x.n1 * x.n2 ≤ 1024 ∨ x.n0 * x.n2 ≤ 1024 ∨ x.n0 * x.n1 ≤ 1024)
    (h : Meets m (fun q : Nat × Nat × Nat => q.1 < x.n0 ∧ q.2.1 < x.n1 ∧ q.2.2 < x.n2) (fun q => r.cell q.1 q.2.1 q.2.2) (fun q => x.cell q.1 q.2.1 q.2.2) a b) :
    Ends (ten3 .add r x) m fun m' => Upd m m' (fun q : Nat × Nat × Nat => q.1 < x.n0 ∧ q.2.1 < x.n1 ∧ q.2.2 < x.n2) (fun q => r.cell q.1 q.2.1 q.2.2) fun q => a q + b q :=
  ten3_core .add r x m a b h0 h1 h2 hz hs h

/-- Adding a multiple. -/
theorem C407_add_scaled [Add α] [Mul α] (r x : RV3) (c : α) (m : Buf α) (a b : Nat × Nat × Nat → α) (h0 : x.n0 ≤ 2147483647) (h1 : x.n1 ≤ 2147483647) (h2 : x.n2 ≤ 2147483647)
    (hz : x.n0 * x.n1 * x.n2 ≤ 1024 → x.n2 ≤ 64) (hs : x.n1 * x.n2 ≤ 1024 ∨ x.n0 * x.n2 ≤ 1024 ∨ x.n0 * x.n1 ≤ 1024)
    (h : Meets m (fun q : Nat × Nat × Nat => q.1 < x.n0 ∧ q.2.1 < x.n1 ∧ q.2.2 < x.n2) (fun q => r.cell q.1 q.2.1 q.2.2) (fun q => x.cell q.1 q.2.1 q.2.2) a b) :
    Ends (ten3 (.addR c) r x) m fun m' => Upd m m' (fun q : Nat × Nat × Nat => q.1 < x.n0 ∧ q.2.1 < x.n1 ∧ q.2.2 < x.n2) (fun q => r.cell q.1 q.2.1 q.2.2) fun q => a q + b q * c :=
  ten3_core (.addR c) r x m a b h0 h1 h2 hz hs h

/-- Two compact tensors of 50 x 10 x 20 entries, each added to itself too. -/
example : Meets (fun p => some (p : Int)) (fun q : Nat × Nat × Nat => q.1 < 50 ∧ q.2.1 < 10 ∧ q.2.2 < 20) (fun q => (⟨0, 50, 10, 20, 200, 20, 1⟩ : RV3).cell q.1 q.2.1 q.2.2)
    (fun q => (⟨0, 50, 10, 20, 200, 20, 1⟩ : RV3).cell q.1 q.2.1 q.2.2) (fun q => (200 * q.1 + 20 * q.2.1 + q.2.2 : Nat)) (fun q => (200 * q.1 + 20 * q.2.1 + q.2.2 : Nat)) := by
  have hinj : ∀ i j : Nat × Nat × Nat, (i.1 < 50 ∧ i.2.1 < 10 ∧ i.2.2 < 20) → (j.1 < 50 ∧ j.2.1 < 10 ∧ j.2.2 < 20) → (⟨0, 50, 10, 20, 200, 20, 1⟩ : RV3).cell i.1 i.2.1 i.2.2 =
      (⟨0, 50, 10, 20, 200, 20, 1⟩ : RV3).cell j.1 j.2.1 j.2.2 → i = j := by
    rintro ⟨i, j, k⟩ ⟨i', j', k'⟩ h h' e
    simp only [RV3.cell] at h h' e
    simp only [Prod.mk.injEq]
    omega
  refine ⟨hinj, hinj, ?_, ?_⟩ <;>
  · rintro ⟨i, j, k⟩ h
    simp only [RV3.cell, Option.some.injEq]
    push_cast
    ring

/-- With at most 1024 entries but more than 64 along the last axis nothing happens: a block may not have more than 64 threads along `z`. -/
theorem C408_last_axis_fails [Add α] [Mul α] (k : Kind α) (r x : RV3) (m : Buf α) (h : x.n0 * x.n1 * x.n2 ≤ 1024) (h2 : 64 < x.n2) : Ends (ten3 k r x) m fun m' => m' = m := by
  rw [ten3, if_pos h]
  refine ends_skip m ?_
  rw [← Bool.not_eq_true, valid_iff]
  dsimp only
  omega

example : (⟨0, 1, 1, 100, 100, 100, 1⟩ : RV3).n0 * (⟨0, 1, 1, 100, 100, 100, 1⟩ : RV3).n1 * (⟨0, 1, 1, 100, 100, 100, 1⟩ : RV3).n2 ≤ 1024 := by decide

theorem thr_within [Add α] [Mul α] (k : Kind α) (r x : Nat) (W : Nat → Prop) (h : W r) : Within (fun _ => True) W (k.thr r x) := by
  refine (Within.rd (.inl trivial)).bind fun v => ?_
  cases k
  · exact Within.wr h
  · exact Within.inc h
  · exact Within.inc h
  · exact Within.inc h
  · exact Within.wr h

/-- If no two of the three sizes have a product of at most 1024, then some entry of a compact target is never touched, in no order of the threads. -/
theorem C408_strides_fails [Add α] [Mul α] (k : Kind α) (r x : RV3) (m m' : Buf α) (hn : r.n0 = x.n0 ∧ r.n1 = x.n1 ∧ r.n2 = x.n2) (hc : r.s0 = x.n1 * x.n2 ∧ r.s1 = x.n2 ∧ r.s2 = 1)
    (h0 : 1024 < x.n1 * x.n2) (h1 : 1024 < x.n0 * x.n2) (h2 : 1024 < x.n0 * x.n1) (ho : Out (ten3 k r x) m (.ok m')) :
    ∃ i j l, i < r.n0 ∧ j < r.n1 ∧ l < r.n2 ∧ m' (r.cell i j l) = m (r.cell i j l) := by
  obtain ⟨e0, e1, e2⟩ := hn
  obtain ⟨c0, c1, c2⟩ := hc
  have p0 : 0 < x.n0 := Nat.pos_of_ne_zero fun e => by rw [e] at h1; omega
  have p1 : 0 < x.n1 := Nat.pos_of_ne_zero fun e => by rw [e] at h0; omega
  have p2 : 0 < x.n2 := Nat.pos_of_ne_zero fun e => by rw [e] at h0; omega
  have h3 : ¬ x.n0 * x.n1 * x.n2 ≤ 1024 := by
    have := Nat.mul_le_mul h2 p2
    omega
  have key : ∀ (l : Launch α) (p : Nat), ten3 k r x = [l] → (∀ bx by' bz tx ty tz, bx < l.blocks.x → by' < l.blocks.y → bz < l.blocks.z → tx < l.threads.x → ty < l.threads.y → tz < l.threads.z →
      ∃ d s, l.kern ⟨bx, by', bz⟩ ⟨tx, ty, tz⟩ = k.thr d s ∧ d ≠ p) → m' p = m p := fun l p el hl => by
    rw [el] at ho
    refine out_frame (fun q => q ≠ p) [l] (fun l' hl' q hq => ?_) m m' ho p fun h => h rfl
    rw [List.mem_singleton.1 hl'] at hq ⊢
    obtain ⟨⟨bx, by', bz⟩, ⟨tx, ty, tz⟩⟩ := q
    obtain ⟨⟨a1, a2, a3⟩, a4, a5, a6⟩ := mem_ids'.1 hq
    obtain ⟨d, s, e, hd⟩ := hl _ _ _ _ _ _ a1 a2 a3 a4 a5 a6
    rw [e]
    exact thr_within k d s _ hd
  by_cases g2 : x.n2 ≤ 1024
  · have hn1 : 2 ≤ x.n1 := by
      by_contra hh
      have : x.n1 = 1 := by omega
      rw [this] at h0
      omega
    refine ⟨0, 1, 0, by omega, by omega, by omega, ?_⟩
    refine key ⟨⟨x.n0, x.n1, 1⟩, ⟨x.n2, 1, 1⟩, kBBT k r.arr x.arr x.s0 x.s1 x.s2 r.s0 r.s0 r.s2⟩ _ ?_ ?_
    · rw [ten3, if_neg h3, if_neg (by omega), if_neg (by omega), if_neg (by omega), if_pos g2]
    · intro bx by' bz tx ty tz _ _ _ htx _ _
      refine ⟨_, _, rfl, fun e => ?_⟩
      dsimp only [RV3.cell] at e htx
      rw [c0, c1, c2] at e
      have e' : bx * (x.n1 * x.n2) + by' * (x.n1 * x.n2) + tx * 1 = x.n2 := by
        simp only [Nat.mul_zero, Nat.mul_one, Nat.zero_add, Nat.add_zero] at e
        omega
      rw [← Nat.add_mul] at e'
      rcases Nat.eq_zero_or_pos (bx + by') with hb | hb
      · rw [hb] at e'
        omega
      · have g := Nat.mul_le_mul hb (Nat.mul_le_mul hn1 (Nat.le_refl x.n2))
        have g' : Nat.succ 0 * (2 * x.n2) = 2 * x.n2 := by ring
        omega
  · by_cases g1 : x.n1 ≤ 1024
    · refine ⟨0, 0, x.n2 - 1, by omega, by omega, by omega, ?_⟩
      refine key ⟨⟨x.n0, x.n2, 1⟩, ⟨x.n1, 1, 1⟩, kBBT k r.arr x.arr x.s1 x.s0 x.s2 r.s1 r.s0 r.s2⟩ _ ?_ ?_
      · rw [ten3, if_neg h3, if_neg (by omega), if_neg (by omega), if_neg (by omega), if_neg g2, if_pos g1]
      · intro bx by' bz tx ty tz _ _ _ htx _ _
        refine ⟨_, _, rfl, fun e => ?_⟩
        dsimp only [RV3.cell] at e htx
        rw [c0, c1, c2] at e
        have e' : x.n2 * (bx + by' * x.n1) + tx = x.n2 - 1 := by
          have : bx * x.n2 + by' * (x.n1 * x.n2) = x.n2 * (bx + by' * x.n1) := by ring
          simp only [Nat.mul_zero, Nat.mul_one, Nat.zero_add, Nat.add_zero, Nat.one_mul] at e
          omega
        rcases Nat.eq_zero_or_pos (bx + by' * x.n1) with hb | hb
        · rw [hb] at e'
          omega
        · have g := Nat.mul_le_mul (Nat.le_refl x.n2) hb
          omega
    · by_cases g0 : x.n0 ≤ 1024
      · refine ⟨0, x.n1 - 1, 0, by omega, by omega, by omega, ?_⟩
        refine key ⟨⟨x.n1, x.n2, 1⟩, ⟨x.n0, 1, 1⟩, kBBT k r.arr x.arr x.s2 x.s0 x.s1 r.s2 r.s0 r.s1⟩ _ ?_ ?_
        · rw [ten3, if_neg h3, if_neg (by omega), if_neg (by omega), if_neg (by omega), if_neg g2, if_neg g1, if_pos g0]
        · intro bx by' bz tx ty tz hbx _ _ htx _ _
          refine ⟨_, _, rfl, fun e => ?_⟩
          dsimp only [RV3.cell] at e htx hbx
          rw [c0, c1, c2] at e
          have e' : bx + by' * (x.n1 * x.n2) + tx * x.n2 = (x.n1 - 1) * x.n2 := by
            have : x.n2 * (x.n1 - 1) = (x.n1 - 1) * x.n2 := by ring
            simp only [Nat.mul_zero, Nat.mul_one, Nat.zero_add, Nat.add_zero] at e
            omega
          have hlt : (x.n1 - 1) * x.n2 < x.n1 * x.n2 := Nat.mul_lt_mul_of_pos_right (by omega) p2
          rcases Nat.eq_zero_or_pos by' with hb | hb
          · subst hb
            obtain ⟨d, hd⟩ : ∃ d, x.n1 - 1 = tx + d := ⟨x.n1 - 1 - tx, by omega⟩
            rw [hd, Nat.add_mul] at e'
            have hd1 : x.n1 ≤ 1024 + d := by omega
            have := Nat.mul_le_mul (Nat.le_refl d) (show 1025 ≤ x.n2 by omega)
            have hd0 : 1 ≤ d := by omega
            omega
          · have := Nat.mul_le_mul hb (Nat.le_refl (x.n1 * x.n2))
            omega
      · refine ⟨0, 0, 1, by omega, by omega, by omega, ?_⟩
        refine key ⟨⟨x.n0, x.n1, x.n2⟩, ⟨1, 1, 1⟩, kBBB k r.arr x.arr x.s0 x.s1 x.s1 r.s0 r.s1 r.s1⟩ _ ?_ ?_
        · rw [ten3, if_neg h3, if_neg (by omega), if_neg (by omega), if_neg (by omega), if_neg g2, if_neg g1, if_neg g0]
        · intro bx by' bz tx ty tz _ _ _ _ _ _
          refine ⟨_, _, rfl, fun e => ?_⟩
          dsimp only [RV3.cell] at e
          rw [c0, c1, c2] at e
          have e' : x.n2 * (bx * x.n1 + by' + bz) = 1 := by
            have : bx * (x.n1 * x.n2) + by' * x.n2 + bz * x.n2 = x.n2 * (bx * x.n1 + by' + bz) := by ring
            simp only [Nat.mul_zero, Nat.mul_one, Nat.zero_add, Nat.add_zero] at e
            omega
          have := Nat.eq_one_of_mul_eq_one_right e'
          omega

/-- A tensor of 33 x 33 x 33 entries. -/
example : (1024 < (33 : Nat) * 33 ∧ (⟨0, 33, 33, 33, 1089, 33, 1⟩ : RV3).s0 = 33 * 33) := by decide

end Cnine
