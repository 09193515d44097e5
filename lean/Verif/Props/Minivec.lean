import Verif.Spec.Minivec

/-! # Properties of small vectors on the host and the GPU (containers/minivec.hpp) -/

namespace Cnine.MV

variable {α : Type _}

/-! ### Heap -/

theorem put_same (h : Heap α) (p : Nat) (b : Option (Blk α)) : (h.put p b).blk p = b := if_pos rfl

theorem put_other (h : Heap α) {p q : Nat} (b : Option (Blk α)) (hq : q ≠ p) : (h.put p b).blk q = h.blk q := if_neg hq

theorem put_next (h : Heap α) (p : Nat) (b : Option (Blk α)) : (h.put p b).next = h.next := rfl

theorem alloc_new (g : Bool) (n : Nat) (h : Heap α) :
    (alloc g n h).blk h.next = some ⟨g, List.replicate (max n 1) none⟩ := if_pos rfl

theorem alloc_old (g : Bool) (n : Nat) (h : Heap α) {q : Nat} (hq : q ≠ h.next) : (alloc g n h).blk q = h.blk q := if_neg hq

theorem alloc_next (g : Bool) (n : Nat) (h : Heap α) : (alloc g n h).next = h.next + 1 := rfl

theorem Holds.grown {h h' : Heap α} {v : Vec} {xs : List α} (H : Holds h v xs) (G : Grown h h') : Holds h' v xs := by
  obtain ⟨hn, p, b, hp, hlt, hb, r⟩ := H
  exact ⟨hn, p, b, hp, Nat.lt_of_lt_of_le hlt G.1, by rw [G.2 p hlt, hb], r⟩

/-- Copying what a vector holds into a fresh block. -/
theorem copy_fresh {h : Heap α} {x : Vec} {xs : List α} (H : Holds h x xs) (sg dg : Bool) (hs : sg = decide (x.dev ≠ 0))
    (d : Int) (hd : dg = decide (d ≠ 0)) :
    ∃ h', copyCells sg dg x.arr (some h.next) x.size (alloc dg x.size h) = .ok h' ∧
      Holds h' ⟨some h.next, x.size, d⟩ xs ∧ Grown h h' := by
  obtain ⟨hn, p, b, hp, hlt, hb, hg, hl, hv⟩ := H
  have hpn : p ≠ h.next := Nat.ne_of_lt hlt
  unfold copyCells
  by_cases h0 : x.size = 0
  · rw [if_pos h0]
    refine ⟨_, rfl, ⟨hn, h.next, _, rfl, Nat.lt_succ_self _, alloc_new _ _ _, hd, by simp [hn], ?_⟩, Nat.le_succ _,
      fun q hq => alloc_old _ _ _ (Nat.ne_of_lt hq)⟩
    intro k hk; omega
  · rw [if_neg h0, hp]
    simp only [alloc_old _ _ _ hpn, hb, alloc_new]
    rw [if_pos ⟨by rw [hg, hs], trivial, by rw [hl]; omega, by simp only [List.length_replicate]; omega⟩]
    refine ⟨_, rfl, ⟨hn, h.next, _, rfl, Nat.lt_succ_self _, put_same _ _ _, hd, ?_, ?_⟩, Nat.le_succ _,
      fun q hq => ?_⟩
    · simp only [List.length_append, List.length_take, List.length_drop, List.length_replicate, hl, hn]; omega
    · intro k hk
      have hk' : k < (b.cells.take x.size).length := by rw [List.length_take, hl]; omega
      show (b.cells.take x.size ++ _)[k]? = _
      rw [List.getElem?_append_left hk', List.getElem?_take_of_lt (by omega)]
      exact hv k hk
    · rw [put_other _ _ (Nat.ne_of_lt hq), alloc_old _ _ _ (Nat.ne_of_lt hq)]

/-! ### C615: copies -/

/-- C615: a copy holds the same list on the same side, in a block of its own; nothing else changes. -/
theorem C615_copy {h : Heap α} {x : Vec} {xs : List α} (H : Holds h x xs) :
    ∃ h' v, copy x h = .ok (h', v) ∧ Holds h' v xs ∧ v.dev = x.dev ∧ v.arr ≠ x.arr ∧ Grown h h' ∧ Holds h' x xs := by
  have hne : some h.next ≠ x.arr := by
    obtain ⟨_, p, _, hp, hlt, _⟩ := H
    rw [hp]; intro e; injection e; omega
  unfold copy mk
  by_cases h0 : x.dev = 0
  · obtain ⟨h', e, a, g⟩ := copy_fresh H false (decide (x.dev ≠ 0)) (by simp [h0]) x.dev rfl
    have e' : copyCells false false x.arr (some h.next) x.size (alloc (decide (x.dev ≠ 0)) x.size h) = .ok h' := by
      rw [← e]; simp [h0]
    refine ⟨h', ⟨some h.next, x.size, x.dev⟩, ?_, a, rfl, hne, g, H.grown g⟩
    simp only [if_pos h0, e', Res.ok_bind]
  · obtain ⟨h', e, a, g⟩ := copy_fresh H true (decide (x.dev ≠ 0)) (by simp [h0]) x.dev rfl
    have e' : copyCells true true x.arr (some h.next) x.size (alloc (decide (x.dev ≠ 0)) x.size h) = .ok h' := by
      rw [← e]; simp [h0]
    refine ⟨h', ⟨some h.next, x.size, x.dev⟩, ?_, a, rfl, hne, g, H.grown g⟩
    simp only [if_neg h0, e', Res.ok_bind]

/-- C615: a copy made for another side holds the same list there. -/
theorem C615_transport {h : Heap α} {x : Vec} {xs : List α} (H : Holds h x xs) (hx : Known x.dev) {d : Int} (hd : Known d) :
    ∃ h' v, transport x d h = .ok (h', v) ∧ Holds h' v xs ∧ v.dev = d ∧ v.arr ≠ x.arr ∧ Grown h h' ∧ Holds h' x xs := by
  have hne : some h.next ≠ x.arr := by
    obtain ⟨_, p, _, hp, hlt, _⟩ := H
    rw [hp]; intro e; injection e; omega
  obtain ⟨h', e, a, g⟩ := copy_fresh H (decide (x.dev ≠ 0)) (decide (d ≠ 0)) rfl d rfl
  refine ⟨h', ⟨some h.next, x.size, d⟩, ?_, a, rfl, hne, g, H.grown g⟩
  unfold transport mk toHost toGpu
  rcases hx with hx | hx <;> rcases hd with hd | hd <;> subst hd <;> simp [hx] at e ⊢ <;> rw [e] <;> rfl

/-- A vector of two numbers on the host, for the examples. -/
def two (d : Int) : Heap Int × Vec :=
  (⟨1, fun q => if q = 0 then some ⟨decide (d ≠ 0), [some 5, some 7]⟩ else none⟩, ⟨some 0, 2, d⟩)

theorem two_holds (d : Int) : Holds (two d).1 (two d).2 [5, 7] := by
  refine ⟨rfl, 0, _, rfl, by simp [two], rfl, rfl, rfl, ?_⟩
  intro k hk
  match k, hk with
  | 0, _ => rfl
  | 1, _ => rfl

example : ∃ h' v, copy (two 1).2 (two 1).1 = .ok (h', v) ∧ Holds h' v [5, 7] ∧ v.dev = 1 := by
  obtain ⟨h', v, a, b, c, _⟩ := C615_copy (two_holds 1)
  exact ⟨h', v, a, b, c⟩

example : ∃ h' v, transport (two 0).2 1 (two 0).1 = .ok (h', v) ∧ Holds h' v [5, 7] ∧ v.dev = 1 := by
  obtain ⟨h', v, a, b, c, _⟩ := C615_transport (two_holds 0) (Or.inl rfl) (d := 1) (Or.inr rfl)
  exact ⟨h', v, a, b, c⟩

/-! ### C616: changing sides -/

/-- C616: after moving to a side the vector holds the same list there; blocks of others stay; the old block is given back when
the side changes. -/
theorem C616_move_to_device {h : Heap α} {v : Vec} {xs : List α} (H : Holds h v xs) (hv : Known v.dev) {d : Int} (hd : Known d) :
    ∃ h' v', moveTo d v h = .ok (h', v') ∧ Holds h' v' xs ∧ v'.dev = d ∧
      (∀ p, p < h.next → v.arr ≠ some p → h'.blk p = h.blk p) ∧
      (d ≠ v.dev → ∀ p, v.arr = some p → h'.blk p = none) ∧ (d = v.dev → h' = h ∧ v' = v) := by
  have main : ∀ g sg : Bool, g = decide (d ≠ 0) → sg = decide (v.dev ≠ 0) → d ≠ v.dev →
      ∃ h1 h2, copyCells sg g v.arr (some h.next) v.size (alloc g v.size h) = .ok h1 ∧ free sg v.arr h1 = .ok h2 ∧
        Holds h2 ⟨some h.next, v.size, d⟩ xs ∧ (∀ p, p < h.next → v.arr ≠ some p → h2.blk p = h.blk p) ∧
        (∀ p, v.arr = some p → h2.blk p = none) := by
    intro g sg hg hsg hne
    obtain ⟨h1, e, a, gr⟩ := copy_fresh H sg g hsg d hg
    obtain ⟨_, p, b, hp, hlt, hb, hbg, _⟩ := H
    have hb1 : h1.blk p = some b := by rw [gr.2 p hlt, hb]
    refine ⟨h1, h1.put p none, e, ?_, ?_, ?_, ?_⟩
    · unfold free; rw [hp]; simp only [hb1]; rw [if_pos (by rw [hbg, hsg])]
    · obtain ⟨a1, q, c, hq, hqlt, hc, r⟩ := a
      have hq' : h.next = q := Option.some.inj hq
      exact ⟨a1, q, c, hq, hqlt, by rw [put_other _ _ (by omega)]; exact hc, r⟩
    · intro q hq hn
      have : q ≠ p := fun e => hn (by rw [hp, e])
      rw [put_other _ _ this, gr.2 q hq]
    · intro q hq
      rw [hp] at hq
      rw [← Option.some.inj hq, put_same]
  unfold moveTo
  rcases hv with hv | hv <;> rcases hd with hd | hd <;> subst hd
  · refine ⟨h, v, ?_, H, hv, fun _ _ _ => rfl, fun n => absurd hv.symm n, fun _ => ⟨rfl, rfl⟩⟩
    simp [hv]
    cases v; simp_all
  · obtain ⟨h1, h2, e1, e2, a, b, c⟩ := main true false (by simp) (by simp [hv]) (by rw [hv]; decide)
    refine ⟨h2, _, ?_, a, rfl, b, fun _ => c, fun e => absurd e (by rw [hv]; decide)⟩
    simp [hv, e1, e2]
  · obtain ⟨h1, h2, e1, e2, a, b, c⟩ := main false true (by simp) (by simp [hv]) (by rw [hv]; decide)
    refine ⟨h2, _, ?_, a, rfl, b, fun _ => c, fun e => absurd e (by rw [hv]; decide)⟩
    simp [hv, e1, e2]
  · refine ⟨h, v, ?_, H, hv, fun _ _ _ => rfl, fun n => absurd hv.symm n, fun _ => ⟨rfl, rfl⟩⟩
    simp [hv]
    cases v; simp_all

example : ∃ h' v', moveTo 1 (two 0).2 (two 0).1 = .ok (h', v') ∧ Holds h' v' [5, 7] ∧ h'.blk 0 = none := by
  obtain ⟨h', v', a, b, _, _, c, _⟩ := C616_move_to_device (two_holds 0) (Or.inl rfl) (d := 1) (Or.inr rfl)
  exact ⟨h', v', a, b, c (by decide) 0 rfl⟩

/-! ### C617: single cells -/

theorem host_ok {h : Heap α} {v : Vec} {xs : List α} (H : Holds h v xs) (hd : v.dev = 0) :
    ∃ p b, v.arr = some p ∧ h.blk p = some b ∧ host v h = .ok (p, b.cells) ∧ b.cells.length = max xs.length 1 ∧
      p < h.next ∧ (∀ k (hk : k < xs.length), b.cells[k]? = some (some xs[k])) := by
  obtain ⟨hn, p, b, hp, hlt, hb, hg, hl, hv⟩ := H
  refine ⟨p, b, hp, hb, ?_, hl, hlt, hv⟩
  have : b.gpu = false := by rw [hg, hd]; rfl
  unfold host; rw [hp]; simp only [hb, this]; rfl

/-- C617: reading cell `k` of a vector on the host gives its item. -/
theorem C617_get {h : Heap α} {v : Vec} {xs : List α} (H : Holds h v xs) (hd : v.dev = 0) (k : Nat) (hk : k < xs.length) :
    get v k h = .ok xs[k] := by
  obtain ⟨p, b, _, _, e, _, _, hv⟩ := host_ok H hd
  unfold get
  rw [e]
  simp only [Res.ok_bind]
  rw [if_neg (by omega)]
  simp only [Int.toNat_natCast, hv k hk]

/-- C617: writing cell `k` of a vector on the host changes that item only, and no other block. -/
theorem C617_set {h : Heap α} {v : Vec} {xs : List α} (H : Holds h v xs) (hd : v.dev = 0) (k : Nat) (hk : k < xs.length) (a : α) :
    ∃ h', set v k a h = .ok h' ∧ Holds h' v (xs.set k a) ∧ ∀ p, v.arr ≠ some p → h'.blk p = h.blk p := by
  obtain ⟨p, b, hp, hb, e, hl, hlt, hv⟩ := host_ok H hd
  unfold set
  rw [e]
  simp only [Res.ok_bind, Int.toNat_natCast]
  rw [if_pos ⟨by omega, by rw [hl]; omega⟩]
  refine ⟨_, rfl, ⟨by rw [List.length_set]; exact H.1, p, _, hp, hlt, put_same _ _ _, by rw [hd]; rfl, ?_, ?_⟩, ?_⟩
  · simp only [List.length_set]; exact hl
  · intro j hj
    rw [List.length_set] at hj
    show (b.cells.set k (some a))[j]? = _
    rw [List.getElem?_set, List.getElem_set]
    by_cases hjk : k = j
    · rw [if_pos hjk, if_pos (by rw [hl]; omega), if_pos hjk]
    · rw [if_neg hjk, if_neg hjk]; exact hv j hj
  · intro q hq
    exact put_other _ _ (fun e => hq (by rw [hp, e]))

/-- C617: adding to cell `k`. -/
theorem C617_inc [Add α] {h : Heap α} {v : Vec} {xs : List α} (H : Holds h v xs) (hd : v.dev = 0) (k : Nat) (hk : k < xs.length)
    (a : α) : ∃ h', inc v k a h = .ok h' ∧ Holds h' v (xs.set k (xs[k] + a)) ∧ ∀ p, v.arr ≠ some p → h'.blk p = h.blk p := by
  obtain ⟨h', e, r⟩ := C617_set H hd k hk (xs[k] + a)
  refine ⟨h', ?_, r⟩
  unfold inc
  rw [C617_get H hd k hk]
  exact e

/-- C617: none of the three is defined for a vector on the GPU. -/
theorem C617_on_gpu [Add α] {h : Heap α} {v : Vec} {xs : List α} (H : Holds h v xs) (hd : v.dev ≠ 0) (k : Int) (a : α) :
    get v k h = .ub ∧ set v k a h = .ub ∧ inc v k a h = .ub := by
  obtain ⟨hn, p, b, hp, hlt, hb, hg, hl, hv⟩ := H
  have hu : host v h = .ub := by
    have : b.gpu = true := by rw [hg]; simp [hd]
    unfold host; rw [hp]; simp only [hb, this]; rfl
  have hget : get v k h = .ub := by unfold get; rw [hu]; rfl
  refine ⟨hget, ?_, ?_⟩
  · unfold set; rw [hu]; rfl
  · unfold inc; rw [hget]; rfl

/-- C617: nor is an index outside the vector, when the vector is not empty. -/
theorem C617_outside [Add α] {h : Heap α} {v : Vec} {xs : List α} (H : Holds h v xs) (hd : v.dev = 0) (hx : xs ≠ []) (k : Int) (a : α)
    (hk : k < 0 ∨ (xs.length : Int) ≤ k) : get v k h = .ub ∧ set v k a h = .ub ∧ inc v k a h = .ub := by
  obtain ⟨p, b, hp, hb, e, hl, hlt, hv⟩ := host_ok H hd
  have hpos : 0 < xs.length := List.length_pos_iff.mpr hx
  have hget : get v k h = .ub := by
    unfold get; rw [e]; simp only [Res.ok_bind]
    by_cases h0 : k < 0
    · rw [if_pos h0]
    · rw [if_neg h0, List.getElem?_eq_none (by rw [hl]; omega)]
  refine ⟨hget, ?_, ?_⟩
  · unfold set; rw [e]; simp only [Res.ok_bind]
    rw [if_neg (by rw [hl]; omega)]
  · unfold inc; rw [hget]; rfl

example : get (two 0).2 1 (two 0).1 = .ok 7 := C617_get (two_holds 0) rfl 1 (by decide)
example : ∃ h', inc (two 0).2 1 3 (two 0).1 = .ok h' ∧ Holds h' (two 0).2 [5, 10] := by
  obtain ⟨h', a, b, _⟩ := C617_inc (two_holds 0) rfl 1 (by decide) 3
  exact ⟨h', a, b⟩
example : get (two 1).2 0 (two 1).1 = .ub := (C617_on_gpu (two_holds 1) (by decide) 0 0).1
example : get (two 0).2 2 (two 0).1 = .ub := (C617_outside (two_holds 0) rfl (by simp) 2 0 (by decide)).1

/-! ### C618: moving from a vector -/

/-- C618 (host only): the new vector holds the list in the same block, and destroying the two gives the block back once. -/
theorem C618_move_partial {h : Heap α} {x : Vec} {xs : List α} (H : Holds h x xs) (hd : x.dev = 0) :
    Holds h (move x).1 xs ∧ (move x).1.arr = x.arr ∧ destroy (move x).2 h = .ok h ∧
      ∃ h', destroy (move x).1 h = .ok h' ∧ (∀ p, x.arr = some p → h'.blk p = none) ∧
        ∀ p, x.arr ≠ some p → h'.blk p = h.blk p := by
  obtain ⟨hn, p, b, hp, hlt, hb, hg, hl, hv⟩ := H
  refine ⟨⟨hn, p, b, hp, hlt, hb, by rw [hg, hd]; rfl, hl, hv⟩, rfl, rfl, h.put p none, ?_, ?_, ?_⟩
  · unfold destroy free move
    rw [hp]; simp only [hb]
    rw [if_pos (by rw [hg, hd])]
  · intro q hq
    rw [hp] at hq
    rw [← Option.some.inj hq, put_same]
  · intro q hq
    exact put_other _ _ (fun e => hq (by rw [hp, e]))

/-- C618: moving from a vector on the GPU never gives a vector that holds the list: the new one says it lies on the host, and
destroying it is undefined. -/
theorem C618_move_fails {h : Heap α} {x : Vec} {xs : List α} (H : Holds h x xs) (hd : x.dev ≠ 0) :
    ¬ Holds h (move x).1 xs ∧ destroy (move x).1 h = .ub := by
  obtain ⟨hn, p, b, hp, hlt, hb, hg, hl, hv⟩ := H
  constructor
  · rintro ⟨_, q, c, hq, _, hc, hcg, _⟩
    have : p = q := Option.some.inj (hp.symm.trans hq)
    subst this
    rw [hb] at hc
    have := Option.some.inj hc
    subst this
    rw [hg] at hcg
    simp [hd, move] at hcg
  · unfold destroy free move
    rw [hp]; simp only [hb]
    rw [if_neg]
    rw [hg]; simp [hd]

example : Holds (two 0).1 (move (two 0).2).1 [5, 7] := (C618_move_partial (two_holds 0) rfl).1
example : destroy (move (two 1).2).1 (two 1).1 = .ub := (C618_move_fails (two_holds 1) (by decide)).2

/-! ### C619: the filling constructor -/

/-- C619 (when the unset member happens to be 0): the vector holds `n` times the value, on the side asked for. -/
theorem C619_filled_partial (h : Heap α) (n : Nat) (a : α) {d : Int} (hd : Known d) :
    ∃ h' v, filled n a d 0 h = .ok (h', v) ∧ Holds h' v (List.replicate n a) ∧ v.dev = d ∧
      ∀ p, p < h.next → h'.blk p = h.blk p := by
  have key : ∃ h1, fillCells ⟨some h.next, n, 0⟩ a (alloc false n h) = .ok h1 ∧
      Holds h1 ⟨some h.next, n, 0⟩ (List.replicate n a) ∧ Grown h h1 ∧ h1.next = h.next + 1 := by
    unfold fillCells
    by_cases h0 : n = 0
    · subst h0
      refine ⟨_, rfl, ⟨rfl, h.next, _, rfl, Nat.lt_succ_self _, alloc_new _ _ _, rfl, rfl, ?_⟩, ⟨Nat.le_succ _,
        fun q hq => alloc_old _ _ _ (Nat.ne_of_lt hq)⟩, rfl⟩
      intro k hk; simp at hk
    · have e : host ⟨some h.next, n, 0⟩ (alloc false n h) = .ok (h.next, List.replicate (max n 1) none) := by
        unfold host; simp only [alloc_new]; rfl
      simp only [if_neg h0, e, Res.ok_bind]
      rw [if_pos (by simp only [List.length_replicate]; omega)]
      refine ⟨_, rfl, ⟨by simp, h.next, _, rfl, Nat.lt_succ_self _, put_same _ _ _, rfl, ?_, ?_⟩, ⟨Nat.le_succ _,
        fun q hq => ?_⟩, rfl⟩
      · simp only [List.length_append, List.length_replicate, List.length_drop]; omega
      · intro k hk
        rw [List.length_replicate] at hk
        show (List.replicate n (some a) ++ _)[k]? = _
        rw [List.getElem?_append_left (by simpa using hk)]
        simp [hk]
      · rw [put_other _ _ (Nat.ne_of_lt hq), alloc_old _ _ _ (Nat.ne_of_lt hq)]
  obtain ⟨h1, e1, H1, G, hnext⟩ := key
  obtain ⟨h2, v, e2, H2, hdv, hold, _⟩ := C616_move_to_device H1 (Or.inl rfl) hd
  refine ⟨h2, v, ?_, H2, hdv, fun p hp => ?_⟩
  · unfold filled mk
    have e1' : fillCells ⟨some h.next, n, 0⟩ a (alloc (decide ((0 : Int) ≠ 0)) n h) = .ok h1 := e1
    simp only [e1', Res.ok_bind, e2]
  · rw [hold p (by omega) (by intro e; have := Option.some.inj e; omega), G.2 p hp]

/-- C619: with any other value of the unset member a vector that is not empty is filled through a pointer to the GPU, whatever
the side asked for. -/
theorem C619_filled_fails (h : Heap α) (n : Nat) (hn : 0 < n) (a : α) (d junk : Int) (hj : junk ≠ 0) :
    filled n a d junk h = .ub := by
  have e : host ⟨some h.next, n, junk⟩ (alloc (decide (junk ≠ 0)) n h) = .ub := by
    unfold host; simp only [alloc_new]; simp [hj]
  unfold filled mk fillCells
  simp only [if_neg (Nat.ne_of_gt hn), e]
  rfl

example : ∃ h' v, filled 3 (4 : Int) 1 0 Heap.empty = .ok (h', v) ∧ Holds h' v [4, 4, 4] ∧ v.dev = 1 := by
  obtain ⟨h', v, a, b, c, _⟩ := C619_filled_partial Heap.empty 3 (4 : Int) (d := 1) (Or.inr rfl)
  exact ⟨h', v, a, b, c⟩
example : filled 3 (4 : Int) 0 17 Heap.empty = .ub := C619_filled_fails _ 3 (by decide) 4 0 17 (by decide)

/-! ### C620: ownership in whole programs -/

/-- Same addresses alive, on the same sides. -/
def Same (h h' : Heap α) : Prop := h'.next = h.next ∧ ∀ p, (h'.blk p).map Blk.gpu = (h.blk p).map Blk.gpu

theorem Same.some {h h' : Heap α} (S : Same h h') {p : Nat} {b : Blk α} (hb : h.blk p = some b) :
    ∃ b', h'.blk p = some b' ∧ b'.gpu = b.gpu := by
  have := S.2 p
  rw [hb] at this
  cases e : h'.blk p with
  | none => rw [e] at this; simp at this
  | some c => rw [e] at this; exact ⟨c, rfl, by simpa using this⟩

theorem Same.symm {h h' : Heap α} (S : Same h h') : Same h' h := ⟨S.1.symm, fun p => (S.2 p).symm⟩

theorem put_Same (h : Heap α) (p : Nat) (b b' : Blk α) (hb : h.blk p = some b) (hg : b'.gpu = b.gpu) : Same h (h.put p (some b')) := by
  refine ⟨rfl, fun q => ?_⟩
  by_cases hq : q = p
  · subst hq; rw [put_same, hb]; simp [hg]
  · rw [put_other _ _ hq]

theorem copyCells_same {sg dg : Bool} {s d : Option Nat} {n : Nat} {h h' : Heap α} (e : copyCells sg dg s d n h = .ok h') :
    Same h h' := by
  unfold copyCells at e
  split at e
  · injection e with e; subst e; exact ⟨rfl, fun _ => rfl⟩
  · split at e
    · split at e
      · rename_i hb
        split at e
        · injection e with e; subst e
          exact put_Same _ _ _ _ hb rfl
        · exact absurd e (by simp)
      · exact absurd e (by simp)
    · exact absurd e (by simp)

theorem host_inv {v : Vec} {h : Heap α} {r} (e : host v h = .ok r) :
    ∃ b, h.blk r.1 = some b ∧ b.gpu = false := by
  unfold host at e
  split at e
  · exact absurd e (by simp)
  · split at e
    · exact absurd e (by simp)
    · rename_i b hb
      split at e
      · exact absurd e (by simp)
      · rename_i hg
        injection e with e; subst e
        exact ⟨b, hb, by simpa using hg⟩

theorem set_same {v : Vec} {k : Int} {a : α} {h h' : Heap α} (e : set v k a h = .ok h') : Same h h' := by
  unfold set at e
  obtain ⟨r, e1, e2⟩ := Res.bind_eq_ok.mp e
  obtain ⟨b, hb, hg⟩ := host_inv e1
  simp only at e2
  split at e2
  · injection e2 with e2; subst e2
    exact put_Same _ _ _ _ hb hg.symm
  · exact absurd e2 (by simp)

theorem inc_same [Add α] {v : Vec} {k : Int} {a : α} {h h' : Heap α} (e : inc v k a h = .ok h') : Same h h' := by
  unfold inc at e
  obtain ⟨r, _, e2⟩ := Res.bind_eq_ok.mp e
  exact set_same e2

theorem free_inv {g : Bool} {p : Option Nat} {h h' : Heap α} (e : free g p h = .ok h') :
    (p = none ∧ h' = h) ∨ ∃ q b, p = some q ∧ h.blk q = some b ∧ h' = h.put q none := by
  unfold free at e
  split at e
  · injection e with e; exact Or.inl ⟨rfl, e.symm⟩
  · split at e
    · exact absurd e (by simp)
    · rename_i b hb
      split at e
      · injection e with e; exact Or.inr ⟨_, b, rfl, hb, e.symm⟩
      · exact absurd e (by simp)

theorem Owned.same {s : St α} (O : Owned s) {h' : Heap α} (S : Same s.heap h') : Owned { s with heap := h' } where
  side i v hv := by
    obtain ⟨a, b⟩ := O.side i v hv
    refine ⟨a, fun p hp => ?_⟩
    obtain ⟨c, d, e, f⟩ := b p hp
    obtain ⟨d', e', f'⟩ := S.some e
    exact ⟨by show p < h'.next; rw [S.1]; exact c, d', e', f'.trans f⟩
  alone := O.alone
  owner p b hb := by
    obtain ⟨b', e', _⟩ := S.symm.some hb
    obtain ⟨a, c⟩ := O.owner p b' e'
    exact ⟨by show p < h'.next; rw [S.1]; exact a, c⟩
  fresh := O.fresh

theorem Owned.add {s : St α} (O : Owned s) (n m : Nat) {d : Int} (hd : Known d) :
    Owned (s.add (alloc (decide (d ≠ 0)) n s.heap) ⟨some s.heap.next, m, d⟩) where
  side i v hv := by
    simp only [St.add, St.put] at hv ⊢
    by_cases hi : i = s.count
    · rw [if_pos hi] at hv; injection hv with hv; subst hv
      refine ⟨hd, fun p hp => ?_⟩
      have : s.heap.next = p := Option.some.inj hp
      subst this
      exact ⟨Nat.lt_succ_self _, _, alloc_new _ _ _, rfl⟩
    · rw [if_neg hi] at hv
      obtain ⟨a, b⟩ := O.side i v hv
      refine ⟨a, fun p hp => ?_⟩
      obtain ⟨c, e⟩ := b p hp
      exact ⟨Nat.lt_succ_of_lt c, by rw [alloc_old _ _ _ (Nat.ne_of_lt c)]; exact e⟩
  alone i j v w p hv hw hp hq := by
    simp only [St.add, St.put] at hv hw
    by_cases hi : i = s.count <;> by_cases hj : j = s.count
    · rw [hi, hj]
    · rw [if_pos hi] at hv; rw [if_neg hj] at hw
      injection hv with hv; subst hv
      have := ((O.side j w hw).2 p hq).1
      have e : s.heap.next = p := Option.some.inj hp
      omega
    · rw [if_neg hi] at hv; rw [if_pos hj] at hw
      injection hw with hw; subst hw
      have := ((O.side i v hv).2 p hp).1
      have e : s.heap.next = p := Option.some.inj hq
      omega
    · rw [if_neg hi] at hv; rw [if_neg hj] at hw
      exact O.alone i j v w p hv hw hp hq
  owner p b hb := by
    simp only [St.add, St.put] at hb ⊢
    by_cases hp : p = s.heap.next
    · subst hp
      exact ⟨Nat.lt_succ_self _, s.count, _, if_pos rfl, rfl⟩
    · rw [alloc_old _ _ _ hp] at hb
      obtain ⟨a, i, v, hv, hq⟩ := O.owner p b hb
      refine ⟨Nat.lt_succ_of_lt a, i, v, ?_, hq⟩
      have : i ≠ s.count := fun e => by rw [O.fresh i (by omega)] at hv; simp at hv
      rw [if_neg this]; exact hv
  fresh i hi := by
    simp only [St.add, St.put] at hi ⊢
    rw [if_neg (by omega)]
    exact O.fresh i (by omega)

theorem Owned.drop {s : St α} (O : Owned s) {i : Nat} {v : Vec} (hv : s.vecs i = some v) {g : Bool} {h' : Heap α}
    (e : free g v.arr s.heap = .ok h') : Owned ⟨h', s.put i none, s.count⟩ := by
  have hnext : h'.next = s.heap.next := by
    rcases free_inv e with ⟨_, r⟩ | ⟨q, b, _, _, r⟩ <;> rw [r]; rfl
  have hoth : ∀ p, v.arr ≠ some p → h'.blk p = s.heap.blk p := by
    intro p hp
    rcases free_inv e with ⟨_, r⟩ | ⟨q, b, hq, _, r⟩
    · rw [r]
    · rw [r, put_other _ _ (fun e => hp (by rw [hq, e]))]
  have hgone : ∀ p, v.arr = some p → h'.blk p = none := by
    intro p hp
    rcases free_inv e with ⟨hq, _⟩ | ⟨q, b, hq, _, r⟩
    · rw [hq] at hp; simp at hp
    · rw [hq] at hp; rw [r, ← Option.some.inj hp, put_same]
  have hlive : ∀ j w, s.put i none j = some w → j ≠ i ∧ s.vecs j = some w := by
    intro j w hw
    simp only [St.put] at hw
    by_cases hj : j = i
    · rw [if_pos hj] at hw; simp at hw
    · rw [if_neg hj] at hw; exact ⟨hj, hw⟩
  refine ⟨fun j w hw => ?_, fun j k w u p hw hu hp hq => ?_, fun p b hb => ?_, fun j hj => ?_⟩
  · obtain ⟨hj, hw⟩ := hlive j w hw
    obtain ⟨a, b⟩ := O.side j w hw
    refine ⟨a, fun p hp => ?_⟩
    obtain ⟨c, d⟩ := b p hp
    refine ⟨by show p < h'.next; rw [hnext]; exact c, ?_⟩
    show ∃ b, h'.blk p = some b ∧ _
    rw [hoth p (fun e => hj (O.alone j i w v p hw hv hp e))]; exact d
  · exact O.alone j k w u p (hlive j w hw).2 (hlive k u hu).2 hp hq
  · have hp : v.arr ≠ some p := fun e => by have := hgone p e; rw [this] at hb; simp at hb
    have hb' : s.heap.blk p = some b := by rw [← hoth p hp]; exact hb
    obtain ⟨a, j, w, hw, hq⟩ := O.owner p b hb'
    refine ⟨by show p < h'.next; rw [hnext]; exact a, j, w, ?_, hq⟩
    have : j ≠ i := fun e => by subst e; rw [hv] at hw; injection hw with hw; subst hw; exact hp hq
    simp only [St.put]; rw [if_neg this]; exact hw
  · simp only [St.put]
    by_cases h : j = i
    · rw [if_pos h]
    · rw [if_neg h]; exact O.fresh j hj

/-- Giving a vector another number changes nothing. -/
theorem Owned.rename {s : St α} (O : Owned s) {i j : Nat} (hi : s.vecs i = none) (hic : i < s.count) {v : Vec} (hj : s.vecs j = some v)
    (n : Nat) (hn : n ≤ s.count) (hjn : n = j) (hin : s.count = n + 1) (hil : i < n) :
    Owned ⟨s.heap, fun k => if k = i then some v else if k = j then none else s.vecs k, n⟩ := by
  have hne : i ≠ j := fun e => by subst e; rw [hi] at hj; simp at hj
  have hlive : ∀ k w, (if k = i then some v else if k = j then none else s.vecs k) = some w →
      ∃ k', s.vecs k' = some w ∧ k' = (if k = i then j else k) := by
    intro k w hw
    by_cases hk : k = i
    · rw [if_pos hk] at hw; injection hw with hw; subst hw; exact ⟨j, hj, by rw [if_pos hk]⟩
    · rw [if_neg hk] at hw
      by_cases hk' : k = j
      · rw [if_pos hk'] at hw; simp at hw
      · rw [if_neg hk'] at hw; exact ⟨k, hw, by rw [if_neg hk]⟩
  refine ⟨fun k w hw => ?_, fun k l w u p hw hu hp hq => ?_, fun p b hb => ?_, fun k hk => ?_⟩
  · obtain ⟨k', hw', _⟩ := hlive k w hw
    exact O.side k' w hw'
  · obtain ⟨k', hw', ek⟩ := hlive k w hw
    obtain ⟨l', hu', el⟩ := hlive l u hu
    have := O.alone k' l' w u p hw' hu' hp hq
    subst this
    by_cases a : k = i <;> by_cases b : l = i
    · rw [a, b]
    · rw [if_pos a] at ek; rw [if_neg b] at el
      have hu2 : (if l = i then some v else if l = j then none else s.vecs l) = some u := hu
      rw [if_neg b, if_pos (by omega)] at hu2; simp at hu2
    · rw [if_neg a] at ek; rw [if_pos b] at el
      have hu2 : (if k = i then some v else if k = j then none else s.vecs k) = some w := hw
      rw [if_neg a, if_pos (by omega)] at hu2; simp at hu2
    · rw [if_neg a] at ek; rw [if_neg b] at el; omega
  · obtain ⟨a, k, w, hw, hq⟩ := O.owner p b hb
    refine ⟨a, ?_⟩
    by_cases hk : k = j
    · subst hk
      rw [hj] at hw; injection hw with hw; subst hw
      exact ⟨i, v, if_pos rfl, hq⟩
    · have hki : k ≠ i := fun e => by subst e; rw [hi] at hw; simp at hw
      refine ⟨k, w, ?_, hq⟩
      show (if k = i then some v else if k = j then none else s.vecs k) = some w
      rw [if_neg hki, if_neg hk]; exact hw
  · show (if k = i then some v else if k = j then none else s.vecs k) = none
    have hk : n ≤ k := hk
    by_cases hkj : k = j
    · rw [if_neg (by omega), if_pos hkj]
    · rw [if_neg (by omega), if_neg hkj]; exact O.fresh k (by omega)

theorem vec_inv {s : St α} {i : Nat} {v : Vec} (e : s.vec i = .ok v) : s.vecs i = some v := by
  unfold St.vec at e
  split at e
  · rename_i w hw; injection e with e; rw [hw, e]
  · exact absurd e (by simp)

theorem Owned.lt {s : St α} (O : Owned s) {i : Nat} {v : Vec} (hv : s.vecs i = some v) : i < s.count := by
  refine Nat.lt_of_not_le fun h => ?_
  rw [O.fresh i h] at hv; simp at hv

/-- A vector in a fresh block takes the place of vector `i`, whose block is given back. -/
theorem Owned.swap {s : St α} (O : Owned s) {i : Nat} {v : Vec} (hv : s.vecs i = some v) (n m : Nat) {d : Int} (hd : Known d)
    {g : Bool} {h1 h2 : Heap α} (S : Same (alloc (decide (d ≠ 0)) n s.heap) h1) (e : free g v.arr h1 = .ok h2) :
    Owned ⟨h2, s.put i (some ⟨some s.heap.next, m, d⟩), s.count⟩ := by
  have hi := O.lt hv
  have O1 := (O.add n m hd).same S
  have hv1 : (s.put s.count (some ⟨some s.heap.next, m, d⟩)) i = some v := by
    simp only [St.put]; rw [if_neg (by omega)]; exact hv
  have O2 := O1.drop (i := i) (v := v) hv1 e
  have O3 := O2.rename (i := i) (j := s.count) (v := ⟨some s.heap.next, m, d⟩) (by simp [St.put]) (Nat.lt_succ_of_lt hi)
    (by simp [St.put, St.add]; omega) s.count (Nat.le_succ _) rfl rfl hi
  have : (fun k => if k = i then some (⟨some s.heap.next, m, d⟩ : Vec) else if k = s.count then none else
      St.put { s.add (alloc (decide (d ≠ 0)) n s.heap) ⟨some s.heap.next, m, d⟩ with heap := h1 } i none k) =
      s.put i (some ⟨some s.heap.next, m, d⟩) := by
    funext k
    simp only [St.put, St.add]
    by_cases a : k = i
    · simp [a]
    · by_cases b : k = s.count
      · subst b; simp [a, O.fresh s.count (Nat.le_refl _)]
      · simp [a, b]
  rw [this] at O3
  exact O3

theorem Owned.setDev {s : St α} (O : Owned s) {i : Nat} {v : Vec} (hv : s.vecs i = some v) :
    Owned ⟨s.heap, s.put i (some v), s.count⟩ := by
  have : s.put i (some v) = s.vecs := by
    funext k; simp only [St.put]
    by_cases a : k = i
    · rw [if_pos a, a, hv]
    · rw [if_neg a]
  rw [this]; exact O

theorem copy_inv {x : Vec} {h : Heap α} {r : Heap α × Vec} (e : copy x h = .ok r) :
    Same (alloc (decide (x.dev ≠ 0)) x.size h) r.1 ∧ r.2 = ⟨some h.next, x.size, x.dev⟩ := by
  unfold copy mk at e
  dsimp only at e
  split at e
  all_goals
    obtain ⟨h1, e3, e4⟩ := Res.bind_eq_ok.mp e
    injection e4 with e4; subst e4
    exact ⟨copyCells_same e3, rfl⟩

theorem toHost_same {x v : Vec} {h h' : Heap α} (e : toHost x v h = .ok h') : Same h h' := by
  unfold toHost at e
  split at e
  · exact copyCells_same e
  · split at e
    · exact copyCells_same e
    · injection e with e; subst e; exact ⟨rfl, fun _ => rfl⟩

theorem toGpu_same {x v : Vec} {h h' : Heap α} (e : toGpu x v h = .ok h') : Same h h' := by
  unfold toGpu at e
  split at e
  · exact copyCells_same e
  · split at e
    · exact copyCells_same e
    · injection e with e; subst e; exact ⟨rfl, fun _ => rfl⟩

theorem transport_inv {x : Vec} {d : Int} {h : Heap α} {r : Heap α × Vec} (e : transport x d h = .ok r) :
    Same (alloc (decide (d ≠ 0)) x.size h) r.1 ∧ r.2 = ⟨some h.next, x.size, d⟩ := by
  unfold transport mk at e
  dsimp only at e
  split at e
  · obtain ⟨h1, e3, e4⟩ := Res.bind_eq_ok.mp e
    injection e4 with e4; subst e4
    exact ⟨toHost_same e3, rfl⟩
  · split at e
    · obtain ⟨h1, e3, e4⟩ := Res.bind_eq_ok.mp e
      injection e4 with e4; subst e4
      exact ⟨toGpu_same e3, rfl⟩
    · obtain ⟨h1, e3, e4⟩ := Res.bind_eq_ok.mp e
      injection e3 with e3; subst e3
      injection e4 with e4; subst e4
      exact ⟨⟨rfl, fun _ => rfl⟩, rfl⟩

theorem step_owned [Add α] {s s' : St α} (O : Owned s) (o : Op α) (hs : Safe s o) (e : step s o = .ok s') : Owned s' := by
  cases o with
  | mk n d =>
    injection e with e; subst e
    exact O.add n n hs
  | copy i =>
    obtain ⟨x, e1, e⟩ := Res.bind_eq_ok.mp e
    obtain ⟨r, e2, e⟩ := Res.bind_eq_ok.mp e
    injection e with e; subst e
    have hx := vec_inv e1
    obtain ⟨S, r2⟩ := copy_inv e2
    rw [r2]
    exact (O.add x.size x.size (O.side i x hx).1).same S
  | move i =>
    obtain ⟨x, e1, e⟩ := Res.bind_eq_ok.mp e
    injection e with e; subst e
    have hx := vec_inv e1
    have hd := hs x hx
    have hi := O.lt hx
    refine ⟨fun k w hw => ?_, fun k l w u p hw hu hp hq => ?_, fun p b hb => ?_, fun k hk => ?_⟩
    · simp only [St.add, St.put, move] at hw ⊢
      by_cases a : k = s.count
      · rw [if_pos a] at hw; injection hw with hw; subst hw
        refine ⟨Or.inl rfl, fun p hp => ?_⟩
        obtain ⟨c, b, f, g⟩ := (O.side i x hx).2 p hp
        exact ⟨c, b, f, by rw [g, hd]⟩
      · rw [if_neg a] at hw
        by_cases b : k = i
        · rw [if_pos b] at hw; injection hw with hw; subst hw
          exact ⟨Or.inl hd, fun p hp => by simp at hp⟩
        · rw [if_neg b] at hw; exact O.side k w hw
    · simp only [St.add, St.put, move] at hw hu
      by_cases a : k = s.count <;> by_cases b : l = s.count
      · rw [a, b]
      · rw [if_pos a] at hw; rw [if_neg b] at hu
        injection hw with hw; subst hw
        by_cases c : l = i
        · rw [if_pos c] at hu; injection hu with hu; subst hu; simp at hq
        · rw [if_neg c] at hu; exact absurd (O.alone l i u x p hu hx hq hp) c
      · rw [if_neg a] at hw; rw [if_pos b] at hu
        injection hu with hu; subst hu
        by_cases c : k = i
        · rw [if_pos c] at hw; injection hw with hw; subst hw; simp at hp
        · rw [if_neg c] at hw; exact absurd (O.alone k i w x p hw hx hp hq) c
      · rw [if_neg a] at hw; rw [if_neg b] at hu
        by_cases c : k = i
        · rw [if_pos c] at hw; injection hw with hw; subst hw; simp at hp
        · by_cases d : l = i
          · rw [if_pos d] at hu; injection hu with hu; subst hu; simp at hq
          · rw [if_neg c] at hw; rw [if_neg d] at hu; exact O.alone k l w u p hw hu hp hq
    · obtain ⟨a, k, w, hw, hq⟩ := O.owner p b hb
      refine ⟨a, ?_⟩
      simp only [St.add, St.put, move]
      by_cases c : k = i
      · subst c; rw [hx] at hw; injection hw with hw; subst hw
        exact ⟨s.count, _, if_pos rfl, hq⟩
      · exact ⟨k, w, by rw [if_neg (Nat.ne_of_lt (O.lt hw)), if_neg c]; exact hw, hq⟩
    · simp only [St.add, St.put] at hk ⊢
      rw [if_neg (by omega), if_neg (by omega)]
      exact O.fresh k (by omega)
  | transport i d =>
    obtain ⟨x, e1, e⟩ := Res.bind_eq_ok.mp e
    obtain ⟨r, e2, e⟩ := Res.bind_eq_ok.mp e
    injection e with e; subst e
    obtain ⟨S, r2⟩ := transport_inv e2
    rw [r2]
    exact (O.add x.size x.size hs).same S
  | moveTo i d =>
    obtain ⟨x, e1, e⟩ := Res.bind_eq_ok.mp e
    obtain ⟨r, e2, e⟩ := Res.bind_eq_ok.mp e
    injection e with e; subst e
    have hx := vec_inv e1
    unfold moveTo at e2
    split at e2
    · rename_i c
      obtain ⟨h1, e3, e4⟩ := Res.bind_eq_ok.mp e2
      obtain ⟨h2, e5, e6⟩ := Res.bind_eq_ok.mp e4
      injection e6 with e6; subst e6
      refine O.swap hx x.size x.size hs ?_ e5
      have := copyCells_same e3
      rwa [show (decide (d ≠ 0)) = false by simp [c.1]]
    · split at e2
      · rename_i c
        obtain ⟨h1, e3, e4⟩ := Res.bind_eq_ok.mp e2
        obtain ⟨h2, e5, e6⟩ := Res.bind_eq_ok.mp e4
        injection e6 with e6; subst e6
        refine O.swap hx x.size x.size hs ?_ e5
        have := copyCells_same e3
        rwa [show (decide (d ≠ 0)) = true by simp [c.1]]
      · rename_i c1 c2
        injection e2 with e2; subst e2
        have hxd := (O.side i x hx).1
        have hs' : Known d := hs
        have : d = x.dev := by
          unfold Known at hxd hs'
          omega
        have hxe : ({ x with dev := d } : Vec) = x := by rw [this]
        rw [hxe]
        exact O.setDev hx
  | set i k a =>
    obtain ⟨x, e1, e⟩ := Res.bind_eq_ok.mp e
    obtain ⟨h1, e2, e⟩ := Res.bind_eq_ok.mp e
    injection e with e; subst e
    exact O.same (set_same e2)
  | inc i k a =>
    obtain ⟨x, e1, e⟩ := Res.bind_eq_ok.mp e
    obtain ⟨h1, e2, e⟩ := Res.bind_eq_ok.mp e
    injection e with e; subst e
    exact O.same (inc_same e2)
  | destroy i =>
    obtain ⟨x, e1, e⟩ := Res.bind_eq_ok.mp e
    obtain ⟨h1, e2, e⟩ := Res.bind_eq_ok.mp e
    injection e with e; subst e
    exact O.drop (vec_inv e1) e2

/-- C620 (no vector on the GPU is moved from): in every state a program reaches each vector owns its block alone and each block has
an owner; so destroying a vector alive is always defined, and once no vector is left no memory is. -/
theorem C620_ownership_partial [Add α] {s : St α} (R : Reach s) :
    Owned s ∧ (∀ i v, s.vecs i = some v → ∃ s', step s (.destroy i) = .ok s') ∧
      ((∀ i, s.vecs i = none) → ∀ p, s.heap.blk p = none) := by
  have O : Owned s := by
    induction R with
    | start => exact ⟨fun _ _ h => by simp at h, fun _ _ _ _ _ h => by simp at h, fun _ _ h => by simp [Heap.empty] at h, fun _ _ => rfl⟩
    | call s s' o _ hs e ih => exact step_owned ih o hs e
  refine ⟨O, fun i v hv => ?_, fun hn p => ?_⟩
  · have e : ∃ h', destroy v s.heap = .ok h' := by
      unfold destroy free
      cases hp : v.arr with
      | none => exact ⟨_, rfl⟩
      | some p =>
        obtain ⟨_, b, hb, hg⟩ := (O.side i v hv).2 p hp
        simp only [hb, if_pos hg]
        exact ⟨_, rfl⟩
    obtain ⟨h', e⟩ := e
    refine ⟨⟨h', s.put i none, s.count⟩, ?_⟩
    simp only [step, St.vec, hv, Res.ok_bind, e]
  · cases hb : s.heap.blk p with
    | none => rfl
    | some b =>
      obtain ⟨_, i, v, hv, _⟩ := O.owner p b hb
      rw [hn i] at hv; simp at hv

/-- The calls in order. -/
def runOps [Add α] (s : St α) (l : List (Op α)) : Res (St α) := Res.forM l s step

/-- C620: a vector made on the GPU, moved from, and the new one destroyed: undefined. -/
theorem C620_ownership_fails :
    runOps (α := Int) ⟨Heap.empty, fun _ => none, 0⟩ [.mk 3 1, .move 0] ≠ .ub ∧
    runOps (α := Int) ⟨Heap.empty, fun _ => none, 0⟩ [.mk 3 1, .move 0, .destroy 1] = .ub := by
  constructor
  · intro h; exact absurd h (by simp [runOps, Res.forM, step, St.vec, St.add, St.put, mk, move])
  · rfl

/-- A program that fills a vector, copies it to the GPU, moves from the first and destroys all three. -/
def sample : List (Op Int) :=
  [.mk 1 0, .set 0 0 5, .transport 0 1, .moveTo 1 0, .moveTo 1 1, .move 0, .destroy 0, .destroy 1, .destroy 2]

example : ∃ s, runOps ⟨Heap.empty, fun _ => none, 0⟩ sample = .ok s := ⟨_, rfl⟩
example : ∃ s : St Int, Reach s ∧ s.vecs 1 = some ⟨some 1, 1, 1⟩ :=
  ⟨_, .call _ _ (.transport 0 1) (.call _ _ (.set 0 0 5) (.call _ _ (.mk 1 0) .start (Or.inl rfl) rfl) trivial rfl) (Or.inr rfl) rfl,
    rfl⟩

end Cnine.MV
