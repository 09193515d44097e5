import Verif.Model.Iview1
import Verif.Props.Iview3

/-! # Properties of copying, filling, cutting and listing vector views of integers (tensor_views/Itensor1_view.hpp) -/

namespace Cnine.IV1

/-! ### C648: copying -/

/-- C648 (on the host, or both strides 1): the target holds the source, nothing else changes. -/
theorem C648_set_partial (r x : IV1) (hd : r.dev = x.dev) (h : x.dev = 0 ∨ x.dev = 1 ∧ r.v.s0 = 1 ∧ x.v.s0 = 1)
    (hn : r.v.n0 = x.v.n0) (hr : r.v.Inj) (hx : r.v.Apart x.v) (m : Buf Int) (R X : Nat → Int) (hR : r.v.Has m R)
    (hX : x.v.Has m X) : ∃ m', r.set x m = .ok m' ∧ r.v.Becomes m m' X := by
  obtain ⟨m', e, b⟩ := C130_set r.v x.v hn hr hx m R X hR hX
  refine ⟨m', ?_, b⟩
  rw [← e]
  unfold set RV1.set
  congr 1; funext _
  by_cases hreg : (r.v.isRegular && x.v.isRegular) = true
  · rw [if_pos hreg, if_pos hreg, if_pos (by rcases h with h | h <;> omega), if_pos hd.symm]
  · rw [if_neg hreg, if_neg hreg]
    rcases h with h | h
    · have hr0 : r.dev = 0 := hd.trans h
      simp only [get, setCell, hr0, h, if_true]
    · exact absurd (by simp [RV1.isRegular, h.2.1, h.2.2]) hreg

/-- C648: on the GPU, unless both strides are 1, nothing is copied and nothing is reported. -/
theorem C648_set_fails (r x : IV1) (hd : r.dev = 1) (h : ¬ (r.v.s0 = 1 ∧ x.v.s0 = 1)) (hn : r.v.n0 = x.v.n0) (m : Buf Int) :
    r.set x m = .ok m := by
  simp [set, hn, hd, RV1.isRegular, h, Res.assrt]

/-- C648: a vector of another length is refused. -/
theorem C648_refuses (r x : IV1) (hn : r.v.n0 ≠ x.v.n0) (m : Buf Int) : r.set x m = .throw := by
  simp [set, hn.symm]

example : ∃ m', set ⟨⟨0, 2, 2⟩, 0⟩ ⟨⟨1, 2, 2⟩, 0⟩ (Buf.ofList [1, 10, 2, 20]) = .ok m' ∧ m' 2 = some 20 ∧ m' 3 = some 20 := ⟨_, rfl, rfl, rfl⟩
example : ∃ m', set ⟨⟨0, 2, 1⟩, 1⟩ ⟨⟨2, 2, 1⟩, 1⟩ (Buf.ofList [1, 2, 10, 20]) = .ok m' ∧ m' 1 = some 20 := ⟨_, rfl, rfl⟩
example (m : Buf Int) : set ⟨⟨0, 2, 2⟩, 1⟩ ⟨⟨1, 2, 2⟩, 1⟩ m = .ok m := C648_set_fails ⟨⟨0, 2, 2⟩, 1⟩ ⟨⟨1, 2, 2⟩, 1⟩ rfl (by decide) rfl m
example (m : Buf Int) : set ⟨⟨0, 2, 2⟩, 0⟩ ⟨⟨1, 3, 2⟩, 0⟩ m = .throw := C648_refuses ⟨⟨0, 2, 2⟩, 0⟩ ⟨⟨1, 3, 2⟩, 0⟩ (by decide) m

/-! ### C649: filling -/

/-- C649: with stride 1 on the host every entry becomes the value; all other views are refused. -/
theorem C649_broadcast (r : IV1) (t : Int) (m : Buf Int) (R : Nat → Int) (hR : r.v.Has m R) :
    (r.v.s0 = 1 → r.dev = 0 → ∃ m', r.broadcast t m = .ok m' ∧ r.v.Becomes m m' fun _ => t) ∧
      (r.v.s0 ≠ 1 ∨ r.dev ≠ 0 → r.broadcast t m = .throw) := by
  refine ⟨fun hs hd => ?_, fun h => ?_⟩
  · obtain ⟨m', e, b⟩ := C130_broadcast r.v t hs m R hR
    refine ⟨m', ?_, b⟩
    rw [← e]
    simp [broadcast, RV1.broadcast, hd, RV1.isRegular, hs]
  · rcases h with h | h
    · simp [broadcast, RV1.isRegular, h]
    · by_cases hs : r.v.s0 = 1
      · simp [broadcast, RV1.isRegular, h, hs]
      · simp [broadcast, RV1.isRegular, hs]

example : ∃ m', broadcast ⟨⟨1, 2, 1⟩, 0⟩ 7 (Buf.ofList [1, 2, 3, 4]) = .ok m' ∧ m' 0 = some 1 ∧ m' 1 = some 7 ∧ m' 2 = some 7 ∧ m' 3 = some 4 :=
  ⟨_, rfl, rfl, rfl, rfl, rfl⟩
example : broadcast ⟨⟨0, 2, 2⟩, 0⟩ 7 (Buf.ofList [1, 2, 3, 4]) = .throw := rfl

/-! ### C650: blocks and lists -/

/-- C650: a block that fits holds the entries from `i0` on, on the same device. -/
theorem C650_block (x : IV1) (i0 m0 : Nat) (h : i0 + m0 ≤ x.v.n0) (m : Buf Int) (X : Nat → Int) (hX : x.v.Has m X) :
    (x.block i0 m0).v.Has m (fun i => X (i0 + i)) ∧ (x.block i0 m0).v.n0 = m0 ∧ (x.block i0 m0).dev = x.dev := by
  refine ⟨fun i hi => ?_, rfl, rfl⟩
  have hi : i < m0 := hi
  have e : (x.block i0 m0).v.cell i = x.v.cell (i0 + i) := (C130_block x.v i0 m0 i).1
  rw [e]
  exact hX _ (by omega)

/-- C650 (on the host): the entries in order. -/
theorem C650_gtensor_partial (x : IV1) (hd : x.dev = 0) (m : Buf Int) (X : Nat → Int) (hX : x.v.Has m X) :
    x.gtensor m = .ok ((List.range x.v.n0).map X) := by
  unfold gtensor
  have key : ∀ n, n ≤ x.v.n0 → (loop n ([] : List Int) fun i l => (do
      let t ← x.get i m
      .ok (l ++ [t]) : Res (List Int))) = .ok ((List.range n).map X) := by
    intro n
    induction n with
    | zero => intro _; rfl
    | succ n ih =>
      intro hn
      rw [RA.loop_snoc, ih (by omega), Res.ok_bind]
      unfold get
      rw [if_pos hd, read_ok (hX n (by omega)), Res.ok_bind, List.range_succ, List.map_append]
      rfl
  exact key _ (Nat.le_refl _)

/-- C650: the list of a vector on the GPU is all zeros. -/
theorem C650_gtensor_fails (x : IV1) (hd : x.dev ≠ 0) (m : Buf Int) : x.gtensor m = .ok (List.replicate x.v.n0 0) := by
  unfold gtensor
  generalize x.v.n0 = k
  induction k with
  | zero => rfl
  | succ n ih =>
    rw [RA.loop_snoc, ih, Res.ok_bind]
    unfold get
    rw [if_neg hd, Res.ok_bind, List.replicate_succ']

example : gtensor (block ⟨⟨0, 3, 2⟩, 0⟩ 1 2) (Buf.ofList [1, 10, 2, 20, 3]) = .ok [2, 3] := rfl
example : gtensor ⟨⟨0, 3, 2⟩, 1⟩ (Buf.ofList [1, 10, 2, 20, 3]) = .ok [0, 0, 0] := C650_gtensor_fails ⟨⟨0, 3, 2⟩, 1⟩ (by decide) _

end Cnine.IV1
