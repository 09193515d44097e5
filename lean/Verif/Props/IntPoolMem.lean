import Verif.Model.IntPoolMem
import Verif.Props.Minivec

/-! # Properties of the memory of pools of integers (containers/int_pool.hpp:31-82) -/

namespace Cnine.IPM

open MV (Heap Known Grown put_same put_other alloc_new alloc_old)

/-- The pool owns a block on the side its `dev` says, holding the cells `cs`. -/
def Has (h : Heap Int) (x : Pool) (cs : List (Option Int)) : Prop :=
  2 ≤ x.memsize ∧ cs.length = x.memsize ∧ ∃ p, x.arr = some p ∧ p < h.next ∧ h.blk p = some ⟨decide (x.dev ≠ 0), cs⟩

theorem mk_has (n m : Nat) (h : Heap Int) :
    Has (mk n m h).1 (mk n m h).2 (some (n : Int) :: some ((n : Int) + 2) :: List.replicate (n + m) none) := by
  refine ⟨by show 2 ≤ n + m + 2; omega, by simp [mk], h.next, rfl, Nat.lt_succ_self _, ?_⟩
  exact put_same _ _ _

theorem carry_cells {h : Heap Int} {p n : Nat} {cs : List (Option Int)} (sg dg : Bool) (hp : p < h.next) (hb : h.blk p = some ⟨sg, cs⟩)
    (hl : cs.length = n) (hn : 0 < n) :
    MV.copyCells sg dg (some p) (some h.next) n (MV.alloc dg n h) = .ok ((MV.alloc dg n h).put h.next (some ⟨dg, cs⟩)) := by
  unfold MV.copyCells
  rw [if_neg (by omega)]
  simp only [alloc_new, alloc_old dg n h (Nat.ne_of_lt hp), hb]
  rw [if_pos ⟨trivial, trivial, by omega, by rw [List.length_replicate]; omega⟩]
  have e1 : cs.take n = cs := List.take_of_length_le (by omega)
  have e2 : (List.replicate (max n 1) (none : Option Int)).drop n = [] := List.drop_eq_nil_of_le (by rw [List.length_replicate]; omega)
  rw [e1, e2, List.append_nil]

/-! ### C637: copies -/

/-- C637 (on the host): the copy holds the same cells in a block of its own, and nothing that was there changes. -/
theorem C637_copy_partial {h : Heap Int} {x : Pool} {cs : List (Option Int)} (H : Has h x cs) (hd : x.dev = 0) :
    ∃ h' y, copy x h = .ok (h', y) ∧ Has h' y cs ∧ Has h' x cs ∧ y.arr ≠ x.arr ∧ y.n = x.n ∧ y.last = x.last ∧ Grown h h' := by
  obtain ⟨h2, hl, p, hp, hlt, hb⟩ := H
  rw [hd] at hb
  have e := carry_cells false false hlt hb hl (by omega)
  have old : ∀ q, q < h.next → ((MV.alloc false x.memsize h).put h.next (some ⟨false, cs⟩)).blk q = h.blk q := fun q hq => by
    rw [put_other _ _ (Nat.ne_of_lt hq), alloc_old _ _ _ (Nat.ne_of_lt hq)]
  refine ⟨(MV.alloc false x.memsize h).put h.next (some ⟨false, cs⟩), ⟨x.n, x.last, x.memsize, some h.next, 0⟩,
    by unfold copy; rw [hp, e]; rfl, ⟨h2, hl, h.next, rfl, Nat.lt_succ_self _, put_same _ _ _⟩,
    ⟨h2, hl, p, hp, Nat.lt_succ_of_lt hlt, by rw [old p hlt, hb, hd]⟩, ?_, rfl, rfl, Nat.le_succ _, old⟩
  rw [hp]; intro e; injection e; omega

/-- C637: copying a pool on the GPU is undefined. -/
theorem C637_copy_fails {h : Heap Int} {x : Pool} {cs : List (Option Int)} (H : Has h x cs) (hd : x.dev ≠ 0) : copy x h = .ub := by
  obtain ⟨h2, hl, p, hp, hlt, hb⟩ := H
  unfold copy MV.copyCells
  rw [if_neg (by omega), hp]
  simp only [alloc_new, alloc_old false x.memsize h (Nat.ne_of_lt hlt), hb]
  rw [if_neg (by simp [hd])]
  rfl

/-! ### C638: the end of a pool -/

/-- C638 (on the host): the block is given back, no other one. -/
theorem C638_destroy_partial {h : Heap Int} {x : Pool} {cs : List (Option Int)} (H : Has h x cs) (hd : x.dev = 0) :
    ∃ h', destroy x h = .ok h' ∧ ∀ q, h'.blk q = if x.arr = some q then none else h.blk q := by
  obtain ⟨h2, hl, p, hp, hlt, hb⟩ := H
  refine ⟨h.put p none, ?_, fun q => ?_⟩
  · unfold destroy MV.free
    rw [hp]
    simp only [hb, hd]
    rfl
  · rw [hp]
    by_cases e : q = p
    · subst e; rw [if_pos rfl, put_same]
    · rw [if_neg (fun h => e (Option.some.inj h).symm), put_other _ _ e]

/-- C638: the end of every pool on the GPU is undefined. -/
theorem C638_destroy_fails {h : Heap Int} {x : Pool} {cs : List (Option Int)} (H : Has h x cs) (hd : x.dev ≠ 0) :
    destroy x h = .ub := by
  obtain ⟨h2, hl, p, hp, hlt, hb⟩ := H
  unfold destroy MV.free
  rw [hp]
  simp only [hb]
  rw [if_neg (by simp [hd])]

/-! ### C639: changing sides -/

theorem carry_ok {h : Heap Int} {x : Pool} {cs : List (Option Int)} (H : Has h x cs) (sg dg : Bool) (d : Int)
    (hs : sg = decide (x.dev ≠ 0)) (hd : dg = decide (d ≠ 0)) :
    ∃ h' y, carry sg dg d x h = .ok (h', y) ∧ Has h' y cs ∧ y.dev = d ∧ y.n = x.n ∧ y.last = x.last ∧
      ∀ q, q < h.next → h'.blk q = if x.arr = some q then none else h.blk q := by
  obtain ⟨h2, hl, p, hp, hlt, hb⟩ := H
  rw [← hs] at hb
  have e := carry_cells sg dg hlt hb hl (by omega)
  have hpn : p ≠ h.next := Nat.ne_of_lt hlt
  have f : MV.free sg (some p) ((MV.alloc dg x.memsize h).put h.next (some ⟨dg, cs⟩)) =
      .ok (((MV.alloc dg x.memsize h).put h.next (some ⟨dg, cs⟩)).put p none) := by
    unfold MV.free
    simp only [put_other _ _ hpn, alloc_old _ _ _ hpn, hb]
    rw [if_pos trivial]
  refine ⟨((MV.alloc dg x.memsize h).put h.next (some ⟨dg, cs⟩)).put p none, { x with arr := some h.next, dev := d },
    by unfold carry; rw [hp, e, Res.ok_bind, f]; rfl, ⟨h2, hl, h.next, rfl, Nat.lt_succ_self _, ?_⟩, rfl, rfl, rfl, ?_⟩
  · rw [put_other _ _ hpn.symm, put_same, hd]
  · intro q hq
    rw [hp]
    by_cases e : q = p
    · subst e; rw [if_pos rfl, put_same]
    · rw [if_neg (fun h => e (Option.some.inj h).symm), put_other _ _ e, put_other _ _ (Nat.ne_of_lt hq),
        alloc_old _ _ _ (Nat.ne_of_lt hq)]

/-- C639: the pool lies on the side asked for and holds the same cells, the old block is given back, all others stay. -/
theorem C639_move_to_device {h : Heap Int} {x : Pool} {cs : List (Option Int)} (H : Has h x cs) (hx : Known x.dev) {d : Int}
    (hd : Known d) : ∃ h' y, moveTo d x h = .ok (h', y) ∧ Has h' y cs ∧ y.dev = d ∧ y.n = x.n ∧ y.last = x.last ∧
      (d = x.dev → h' = h ∧ y = x) ∧ (d ≠ x.dev → ∀ q, q < h.next → h'.blk q = if x.arr = some q then none else h.blk q) := by
  unfold moveTo
  by_cases h0 : x.dev = d
  · rw [if_pos h0]
    exact ⟨h, x, rfl, H, h0, rfl, rfl, fun _ => ⟨rfl, rfl⟩, fun e => absurd h0.symm e⟩
  · rw [if_neg h0]
    rcases hx with hx | hx <;> rcases hd with hd | hd
    · exact absurd (hx.trans hd.symm) h0
    · rw [if_pos ⟨hx, hd⟩]
      obtain ⟨h', y, a, b, c, e, f, g⟩ := carry_ok H false true 1 (by rw [hx]; rfl) rfl
      exact ⟨h', y, a, b, c.trans hd.symm, e, f, fun e => absurd e.symm h0, fun _ => g⟩
    · rw [if_neg (by omega), if_pos ⟨hx, hd⟩]
      obtain ⟨h', y, a, b, c, e, f, g⟩ := carry_ok H true false 0 (by rw [hx]; rfl) rfl
      exact ⟨h', y, a, b, c.trans hd.symm, e, f, fun e => absurd e.symm h0, fun _ => g⟩
    · exact absurd (hx.trans hd.symm) h0

/-! ### C640: moving a pool into another -/

/-- C640 (on the host): the new pool holds the cells, the old one holds nothing and its end changes nothing. -/
theorem C640_move_partial {h : Heap Int} {x : Pool} {cs : List (Option Int)} (H : Has h x cs) (hd : x.dev = 0) :
    Has h (move x).1 cs ∧ (move x).1 = x ∧ destroy (move x).2 h = .ok h := by
  obtain ⟨h2, hl, p, hp, hlt, hb⟩ := H
  refine ⟨⟨h2, hl, p, hp, hlt, ?_⟩, ?_, rfl⟩
  · rw [hb, hd]; rfl
  · unfold move; obtain ⟨_, _, _, _, _⟩ := x; simp only at hd; subst hd; rfl

/-- C640: a pool on the GPU says it is on the host after the move; `move_to_device(0)` then leaves it there and its end is undefined. -/
theorem C640_move_fails {h : Heap Int} {x : Pool} {cs : List (Option Int)} (H : Has h x cs) (hd : x.dev ≠ 0) :
    ¬ Has h (move x).1 cs ∧ moveTo 0 (move x).1 h = .ok (h, (move x).1) ∧ destroy (move x).1 h = .ub := by
  obtain ⟨h2, hl, p, hp, hlt, hb⟩ := H
  refine ⟨?_, rfl, ?_⟩
  · rintro ⟨_, _, q, hq, _, hc⟩
    have : p = q := Option.some.inj (hp.symm.trans hq)
    subst this
    rw [hb] at hc
    simp [move, hd] at hc
  · unfold destroy MV.free move
    simp only [hp, hb]
    rw [if_neg (by simp [hd])]

/-! ### A pool of two lists with three places, carried to the GPU -/

/-- A pool on the host (containers/int_pool.hpp:35-41). -/
def sample : Heap Int × Pool := mk 2 3 Heap.empty

example : Has sample.1 sample.2 [some 2, some 4, none, none, none, none, none] := mk_has 2 3 Heap.empty
example : ∃ h' y, copy sample.2 sample.1 = .ok (h', y) ∧ y.arr = some 1 := ⟨_, _, rfl, rfl⟩
example : ∃ h' y, moveTo 1 sample.2 sample.1 = .ok (h', y) ∧ y.dev = 1 ∧ h'.blk 0 = none ∧ copy y h' = .ub ∧ destroy y h' = .ub :=
  ⟨_, _, rfl, rfl, rfl, rfl, rfl⟩
example : ∃ h' y h2 z, moveTo 1 sample.2 sample.1 = .ok (h', y) ∧ moveTo 0 y h' = .ok (h2, z) ∧
    Has h2 z [some 2, some 4, none, none, none, none, none] := by
  obtain ⟨h', y, a, b, c, _⟩ := C639_move_to_device (mk_has 2 3 Heap.empty) (Or.inl rfl) (Or.inr rfl)
  obtain ⟨h2, z, e, f, _⟩ := C639_move_to_device b (Or.inr c) (Or.inl rfl)
  exact ⟨h', y, h2, z, a, e, f⟩
example : ∃ h' y, moveTo 1 sample.2 sample.1 = .ok (h', y) ∧ destroy (move y).1 h' = .ub := ⟨_, _, rfl, rfl⟩
example : ∃ h', destroy sample.2 sample.1 = .ok h' ∧ h'.blk 0 = none := ⟨_, rfl, rfl⟩
example : destroy (move sample.2).2 sample.1 = .ok sample.1 := (C640_move_partial (mk_has 2 3 Heap.empty) rfl).2.2

end Cnine.IPM
