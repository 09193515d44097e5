import Verif.Spec.GPUbuffer
import Verif.Props.Minivec

/-! # Properties of the GPU buffers (containers/GPUbuffer.hpp, containers/AsyncGPUbuffer.hpp) -/

namespace Cnine.GB

open MV (Heap Blk Vec Holds put_same put_other)

variable {α : Type _}

theorem alloc_new (g : Bool) (n : Nat) (h : Heap α) : (alloc g n h).blk h.next = some ⟨g, List.replicate n none⟩ := if_pos rfl

theorem alloc_old (g : Bool) (n : Nat) (h : Heap α) {q : Nat} (hq : q ≠ h.next) : (alloc g n h).blk q = h.blk q := if_neg hq

theorem source_ok {h : Heap α} {v : Vec} {xs : List α} (H : Holds h v xs) (hd : v.dev = 0) : source v h = .ok (xs.map some) := by
  obtain ⟨p, b, _, _, e, hl, _, hv⟩ := MV.host_ok H hd
  have hn := H.1
  unfold source
  by_cases h0 : v.size = 0
  · have : xs = [] := List.length_eq_zero_iff.mp (by omega)
    subst this
    simp [h0]
  · simp only [if_neg h0, e, Res.ok_bind]
    rw [if_pos (by rw [hl]; omega)]
    congr 1
    apply List.ext_getElem?
    intro k
    by_cases hk : k < xs.length
    · rw [List.getElem?_take_of_lt (by omega), hv k hk]; simp [hk]
    · rw [List.getElem?_eq_none (by simp [hl]; omega), List.getElem?_eq_none (by simp; omega)]

theorem written (c : List (Option α)) (i : Nat) (xs : List α) (hi : i + xs.length ≤ c.length) :
    Written c (c.take i ++ xs.map some ++ c.drop (i + xs.length)) i xs := by
  have hti : (c.take i).length = i := by rw [List.length_take]; omega
  refine ⟨by simp; omega, fun k hk => ?_, fun j hj => ?_⟩
  · rw [List.append_assoc, List.getElem?_append_right (by omega), hti, Nat.add_sub_cancel_left,
      List.getElem?_append_left (by simpa using hk)]
    simp [hk]
  · rcases hj with hj | hj
    · rw [List.append_assoc, List.getElem?_append_left (by omega), List.getElem?_take_of_lt hj]
    · rw [List.getElem?_append_right (by simp; omega), List.getElem?_drop]
      congr 1
      simp; omega

theorem writeAt_ok {h : Heap α} {g : Bool} {p : Nat} {c : List (Option α)} (hb : h.blk p = some ⟨g, c⟩) (i : Nat) (xs : List α)
    (hi : i + xs.length ≤ c.length) : ∃ h' c', writeAt g (some p) i (xs.map some) h = .ok h' ∧ h'.next = h.next ∧
      h'.blk p = some ⟨g, c'⟩ ∧ Written c c' i xs ∧ ∀ q, q ≠ p → h'.blk q = h.blk q := by
  unfold writeAt
  by_cases h0 : xs = []
  · subst h0
    exact ⟨h, c, rfl, rfl, hb, ⟨rfl, fun k hk => by simp at hk, fun _ _ => rfl⟩, fun _ _ => rfl⟩
  · rw [if_neg (by simpa using h0)]
    simp only [hb]
    rw [if_pos ⟨trivial, by omega, by simpa using hi⟩]
    refine ⟨_, _, rfl, rfl, put_same _ _ _, ?_, fun q hq => put_other _ _ hq⟩
    simpa using written c i xs hi

theorem assrt_false {β} (f : Unit → Res β) : (Res.assrt false >>= f) = .throw := rfl

/-! ### C623: writing into a buffer -/

/-- C623 (`i` not negative): a host vector that fits is written at cell `i`, all other cells and blocks stay. -/
theorem C623_push_partial {h : Heap α} {b : Buffer} {c : List (Option α)} {v : Vec} {xs : List α} (B : Has h b c) (H : Holds h v xs)
    (hd : v.dev = 0) (i : Nat) (hi : i + xs.length ≤ b.size) :
    ∃ h' c', push b i v h = .ok h' ∧ Has h' b c' ∧ Written c c' i xs ∧ ∀ q, b.arr ≠ some q → h'.blk q = h.blk q := by
  obtain ⟨hs, p, hp, hlt, hb⟩ := B
  obtain ⟨h', c', e, hn, hb', hw, ho⟩ := writeAt_ok hb i xs (by omega)
  have hf : fits i v.size b.size = true := by unfold fits; rw [H.1]; exact decide_eq_true ⟨by omega, by omega⟩
  refine ⟨h', c', ?_, ⟨hs.trans hw.1.symm, p, hp, by omega, hb'⟩, hw, fun q hq => ho q (fun e => hq (by rw [hp, e]))⟩
  unfold push
  rw [decide_eq_true hd, hf, source_ok H hd, hp]
  exact e

/-- C623: a vector on the GPU or one that does not fit is refused. -/
theorem C623_push_refused (h : Heap α) (b : Buffer) (v : Vec) (i : Nat) (hi : v.dev ≠ 0 ∨ b.size < i + v.size) :
    push b i v h = .throw := by
  unfold push
  by_cases hd : v.dev = 0
  · have hf : fits i v.size b.size = false := by
      unfold fits; apply decide_eq_false; intro hc; rcases hi with hi | hi
      · exact hi hd
      · omega
    rw [decide_eq_true hd, hf]; rfl
  · rw [decide_eq_false hd]; rfl

/-- C623: a negative `i` passes the check whenever the end of the vector lies inside the buffer, and the write starts before the
buffer. -/
theorem C623_push_fails {h : Heap α} {b : Buffer} {c : List (Option α)} {v : Vec} {xs : List α} (B : Has h b c) (H : Holds h v xs)
    (hd : v.dev = 0) (i : Int) (hi : i < 0) (h0 : 0 ≤ i + xs.length) (h1 : i + xs.length ≤ b.size) : push b i v h = .ub := by
  obtain ⟨hs, p, hp, hlt, hb⟩ := B
  have hf : fits i v.size b.size = true := by unfold fits; rw [H.1]; exact decide_eq_true ⟨h0, h1⟩
  have hx : ¬ xs.map some = [] := by intro e; have := List.map_eq_nil_iff.mp e; subst this; simp at h0; omega
  unfold push
  rw [decide_eq_true hd, hf, source_ok H hd, hp]
  show writeAt true (some p) i (xs.map some) h = .ub
  unfold writeAt
  rw [if_neg hx]
  simp only [hb]
  rw [if_neg (by omega)]

/-- A host vector 5, 7 and a buffer of three cells, for the examples. -/
def h3 : Heap Int := ⟨2, fun q => if q = 0 then some ⟨false, [some 5, some 7]⟩ else if q = 1 then some ⟨true, [none, some 1, none]⟩ else none⟩

theorem h3_vec : Holds h3 ⟨some 0, 2, 0⟩ [5, 7] := by
  refine ⟨rfl, 0, _, rfl, by decide, rfl, rfl, rfl, ?_⟩
  intro k hk
  match k, hk with
  | 0, _ => rfl
  | 1, _ => rfl

theorem h3_has : Has h3 ⟨some 1, 3⟩ [none, some 1, none] := ⟨rfl, 1, rfl, by decide, rfl⟩

example : ∃ h' c', push ⟨some 1, 3⟩ 1 ⟨some 0, 2, 0⟩ h3 = .ok h' ∧ Has h' ⟨some 1, 3⟩ c' ∧
    Written [none, some 1, none] c' 1 [5, 7] := by
  obtain ⟨h', c', a, b, c, _⟩ := C623_push_partial h3_has h3_vec rfl 1 (by decide)
  exact ⟨h', c', a, b, c⟩
example : push ⟨some 1, 3⟩ 2 ⟨some 0, 2, 0⟩ h3 = .throw := C623_push_refused h3 _ _ 2 (Or.inr (by decide))
example : push ⟨some 1, 3⟩ (-1) ⟨some 0, 2, 0⟩ h3 = .ub := C623_push_fails h3_has h3_vec rfl (-1) (by decide) (by decide) (by decide)

/-! ### C624: enlarging a buffer -/

/-- C624 (`n` not negative): afterwards the buffer has room for `n` cells; one that had keeps its cells; otherwise the old block
is given back and nothing else changes. -/
theorem C624_reset_partial {h : Heap α} {b : Buffer} {c : List (Option α)} (B : Has h b c) (n : Nat) :
    ∃ h' b' c', reset n b h = .ok (h', b') ∧ Has h' b' c' ∧ n ≤ b'.size ∧ b.size ≤ b'.size ∧ (n ≤ b.size → h' = h ∧ b' = b) ∧
      (b.size < n → b'.size = n ∧ (∀ p, b.arr = some p → h'.blk p = none)) ∧ ∀ q, q < h.next → b.arr ≠ some q → h'.blk q = h.blk q := by
  unfold reset
  by_cases hn : n ≤ b.size
  · rw [if_pos ⟨by omega, by omega⟩]
    exact ⟨h, b, c, rfl, B, hn, Nat.le_refl _, fun _ => ⟨rfl, rfl⟩, fun l => by omega, fun _ _ _ => rfl⟩
  · rw [if_neg (by omega)]
    obtain ⟨hs, p, hp, hlt, hb⟩ := B
    have hsz : atLeast1 n = n := by unfold atLeast1; omega
    have e : MV.free true b.arr h = .ok (h.put p none) := by unfold MV.free; rw [hp]; simp only [hb]; rfl
    rw [e]
    refine ⟨_, _, List.replicate (atLeast1 n) none, rfl, ⟨by simp [mk], h.next, rfl, Nat.lt_succ_self _, alloc_new _ _ _⟩, ?_, ?_,
      fun l => absurd l hn, fun _ => ⟨hsz, fun q hq => ?_⟩, fun q hq hne => ?_⟩
    · show n ≤ atLeast1 n; omega
    · show b.size ≤ atLeast1 n; omega
    · rw [hp] at hq
      have := Option.some.inj hq
      subst this
      show (alloc true (atLeast1 n) (h.put p none)).blk p = none
      rw [alloc_old _ _ _ (by show p ≠ h.next; omega), put_same]
    · show (alloc true (atLeast1 n) (h.put p none)).blk q = h.blk q
      rw [alloc_old _ _ _ (by show q ≠ h.next; omega), put_other _ _ (fun e => hne (by rw [hp, e]))]

/-- C624: a negative `n`, compared as a `size_t`, replaces every buffer by one of a single cell. -/
theorem C624_reset_fails {h : Heap α} {b : Buffer} {c : List (Option α)} (B : Has h b c) (n : Int) (hn : n < 0) :
    ∃ h' b', reset n b h = .ok (h', b') ∧ Has h' b' [none] ∧ ∀ p, b.arr = some p → h'.blk p = none := by
  unfold reset
  rw [if_neg (by omega)]
  obtain ⟨hs, p, hp, hlt, hb⟩ := B
  have hsz : atLeast1 n = 1 := by unfold atLeast1; omega
  have e : MV.free true b.arr h = .ok (h.put p none) := by unfold MV.free; rw [hp]; simp only [hb]; rfl
  rw [e]
  refine ⟨_, _, rfl, ⟨by simp [mk, hsz], h.next, rfl, Nat.lt_succ_self _, ?_⟩, fun q hq => ?_⟩
  · have := alloc_new true (atLeast1 n) (h.put p none)
    rw [hsz] at this
    show (alloc true (atLeast1 n) (h.put p none)).blk h.next = _
    rw [hsz]; exact this
  · rw [hp] at hq
    have := Option.some.inj hq
    subst this
    show (alloc true (atLeast1 n) (h.put p none)).blk p = none
    rw [alloc_old _ _ _ (by show p ≠ h.next; omega), put_same]

example : ∃ h' b' c', reset (5 : Nat) ⟨some 1, 3⟩ h3 = .ok (h', b') ∧ Has h' b' c' ∧ 5 ≤ b'.size := by
  obtain ⟨h', b', c', a, b, c, _⟩ := C624_reset_partial h3_has 5
  exact ⟨h', b', c', a, b, c⟩
example : ∃ h' b', reset (-1) ⟨some 1, 3⟩ h3 = .ok (h', b') ∧ Has h' b' [none] := by
  obtain ⟨h', b', a, b, _⟩ := C624_reset_fails h3_has (-1) (by decide)
  exact ⟨h', b', a, b⟩

/-! ### C625: copies of a buffer -/

/-- C625 (buffers without memory): copy and original can both be destroyed. -/
theorem C625_copy_partial (h : Heap α) : (destroy empty h >>= destroy empty) = .ok h := rfl

/-- C625: the class does not define copying, so a copy has the same pointer: destroying both is undefined for every buffer with
memory. -/
theorem C625_copy_fails {h : Heap α} {b : Buffer} {c : List (Option α)} (B : Has h b c) :
    (∃ h', destroy b h = .ok h') ∧ (destroy b h >>= destroy b) = .ub := by
  obtain ⟨hs, p, hp, hlt, hb⟩ := B
  have e : destroy b h = .ok (h.put p none) := by unfold destroy MV.free; rw [hp]; simp only [hb]; rfl
  refine ⟨⟨_, e⟩, ?_⟩
  rw [e]
  show destroy b (h.put p none) = .ub
  unfold destroy MV.free
  rw [hp]
  simp only [put_same]

example : (destroy empty h3 >>= destroy empty) = .ok h3 := C625_copy_partial h3
example : (destroy ⟨some 1, 3⟩ h3 >>= destroy ⟨some 1, 3⟩) = .ub := (C625_copy_fails h3_has).2

/-! ### C626: two-sided buffers -/

/-- C626: writing a host vector into the host side and synchronising puts it, and all else the host side holds, on the GPU side. -/
theorem C626_push_sync {h : Heap α} {b : Async} {c g : List (Option α)} {v : Vec} {xs : List α} (B : AHas h b c g) (H : Holds h v xs)
    (hd : v.dev = 0) (i : Nat) (hi : i + xs.length ≤ b.size) :
    ∃ h1 h2 c', b.push i v h = .ok h1 ∧ AHas h1 b c' g ∧ Written c c' i xs ∧ b.sync h1 = .ok h2 ∧ AHas h2 b c' c' ∧
      ∀ q, b.arr ≠ some q → b.arrg ≠ some q → h2.blk q = h.blk q := by
  obtain ⟨hs, hs', p, q, hp, hq, hplt, hqlt, hb, hbg⟩ := B
  have hpq : p ≠ q := fun e => by subst e; rw [hb] at hbg; simp at hbg
  obtain ⟨h1, c', e, hn, hb', hw, ho⟩ := writeAt_ok hb i xs (by omega)
  have hf : fits i v.size b.size = true := by unfold fits; rw [H.1]; exact decide_eq_true ⟨by omega, by omega⟩
  have hg1 : h1.blk q = some ⟨true, g⟩ := by rw [ho q (Ne.symm hpq), hbg]
  have hl : c'.length = c.length := hw.1
  have hpush : b.push i v h = .ok h1 := by
    unfold Async.push
    rw [decide_eq_true hd, hf, source_ok H hd, hp]
    exact e
  have A1 : AHas h1 b c' g := ⟨by omega, hs', p, q, hp, hq, by omega, by omega, hb', hg1⟩
  by_cases h0 : b.size = 0
  · have hc : c' = [] := List.length_eq_zero_iff.mp (by omega)
    have hgg : g = [] := List.length_eq_zero_iff.mp (by omega)
    refine ⟨h1, h1, c', hpush, A1, hw, ?_, by rw [hc] at A1 ⊢; rw [hgg] at A1; exact A1, fun r hr _ => ho r (fun e => hr (by rw [hp, e]))⟩
    unfold Async.sync MV.copyCells
    rw [if_pos h0]
  · refine ⟨h1, h1.put q (some ⟨true, c'.take b.size ++ g.drop b.size⟩), c', hpush, A1, hw, ?_,
      ⟨by omega, by omega, p, q, hp, hq, by show p < h1.next; omega, by show q < h1.next; omega, ?_, ?_⟩, fun r hr hr' => ?_⟩
    · unfold Async.sync MV.copyCells
      rw [if_neg h0, hp, hq]
      simp only [hb', hg1]
      rw [if_pos ⟨trivial, trivial, by omega, by omega⟩]
    · rw [put_other _ _ hpq, hb']
    · rw [put_same, List.take_of_length_le (by omega), List.drop_eq_nil_of_le (by omega), List.append_nil]
    · rw [put_other _ _ (fun e => hr' (by rw [hq, e])), ho r (fun e => hr (by rw [hp, e]))]

/-- A host vector 5, 7 and a two-sided buffer of three cells, for the examples. -/
def h4 : Heap Int := ⟨3, fun q => if q = 0 then some ⟨false, [some 5, some 7]⟩ else if q = 1 then some ⟨false, [none, some 1, some 2]⟩ else
  if q = 2 then some ⟨true, [none, none, none]⟩ else none⟩

theorem h4_vec : Holds h4 ⟨some 0, 2, 0⟩ [5, 7] := by
  refine ⟨rfl, 0, _, rfl, by decide, rfl, rfl, rfl, ?_⟩
  intro k hk
  match k, hk with
  | 0, _ => rfl
  | 1, _ => rfl

theorem h4_has : AHas h4 ⟨some 1, some 2, 3⟩ [none, some 1, some 2] [none, none, none] :=
  ⟨rfl, rfl, 1, 2, rfl, rfl, by decide, by decide, rfl, rfl⟩

example : ∃ h1 h2 c', Async.push ⟨some 1, some 2, 3⟩ 0 ⟨some 0, 2, 0⟩ h4 = .ok h1 ∧ Async.sync ⟨some 1, some 2, 3⟩ h1 = .ok h2 ∧
    AHas h2 ⟨some 1, some 2, 3⟩ c' c' ∧ Written [none, some 1, some 2] c' 0 [5, 7] := by
  obtain ⟨h1, h2, c', a, _, b, c, d, _⟩ := C626_push_sync h4_has h4_vec rfl 0 (by decide)
  exact ⟨h1, h2, c', a, c, d, b⟩

/-! ### C627: the memory of two-sided buffers -/

theorem fresh_destroy (n : Int) (h : Heap α) (hf : ∀ p, h.next ≤ p → h.blk p = none) :
    ∃ h', (Async.fresh n h).2.destroy (Async.fresh n h).1 = .ok h' ∧ ∀ p, h'.blk p = h.blk p := by
  unfold Async.destroy Async.fresh MV.free
  have e1 : (alloc true (atLeast1 n) (alloc false (atLeast1 n) h)).blk h.next = some ⟨false, List.replicate (atLeast1 n) none⟩ := by
    rw [alloc_old _ _ _ (by show h.next ≠ h.next + 1; omega), alloc_new]
  have e2 : (alloc true (atLeast1 n) (alloc false (atLeast1 n) h)).blk (h.next + 1) = some ⟨true, List.replicate (atLeast1 n) none⟩ :=
    alloc_new true (atLeast1 n) (alloc false (atLeast1 n) h)
  simp only [e1, if_true, Res.ok_bind]
  rw [put_other _ _ (by omega), e2]
  refine ⟨_, rfl, fun p => ?_⟩
  by_cases hp : p = h.next + 1
  · subst hp; rw [put_same, hf _ (by omega)]
  · rw [put_other _ _ hp]
    by_cases hp' : p = h.next
    · subst hp'; rw [put_same, hf _ (Nat.le_refl _)]
    · rw [put_other _ _ hp', alloc_old _ _ _ hp, alloc_old _ _ _ hp']

/-- C627 (buffers made empty and then given a size): destroying the buffer leaves the memory as it was before. -/
theorem C627_no_leak_partial (n dev : Int) (h : Heap α) (hf : ∀ p, h.next ≤ p → h.blk p = none) (hn : n ≠ 0 ∨ dev ≠ 1) :
    ∃ h1 b h2, Async.empty.resize n dev h = .ok (h1, b) ∧ (0 < n → (b.size : Int) = n) ∧ b.destroy h1 = .ok h2 ∧
      ∀ p, h2.blk p = h.blk p := by
  obtain ⟨h2, e, r⟩ := fresh_destroy n h hf
  refine ⟨_, _, h2, ?_, fun hp => ?_, e, r⟩
  · unfold Async.resize
    rw [if_neg]
    · rfl
    · rintro ⟨a, c⟩
      rcases hn with hn | hn
      · exact hn c
      · exact hn a
  · show ((atLeast1 n : Nat) : Int) = n
    unfold atLeast1; omega

/-- C627: a buffer made with a size leaves a block on the host alive when it is destroyed, for every size. -/
theorem C627_no_leak_fails (n : Int) (h : Heap α) (hf : ∀ p, h.next ≤ p → h.blk p = none) :
    ∃ h2, (Async.mk' n h).2.destroy (Async.mk' n h).1 = .ok h2 ∧ h.blk h.next = none ∧ (h2.blk h.next).isSome := by
  have hf' : ∀ p, (alloc false (atLeast1 n) h).next ≤ p → (alloc false (atLeast1 n) h).blk p = none := by
    intro p hp
    have hp : h.next + 1 ≤ p := hp
    rw [alloc_old _ _ _ (by omega)]; exact hf p (by omega)
  obtain ⟨h2, e, r⟩ := fresh_destroy n (alloc false (atLeast1 n) h) hf'
  refine ⟨h2, e, hf _ (Nat.le_refl _), ?_⟩
  rw [r, alloc_new]
  rfl

example : ∃ h1 b h2, Async.empty.resize 4 1 h4 = .ok (h1, b) ∧ b.destroy h1 = .ok h2 ∧ ∀ p, h2.blk p = h4.blk p := by
  have hf : ∀ p, h4.next ≤ p → h4.blk p = none := by
    intro p hp
    have hp : 3 ≤ p := hp
    simp only [h4]; rw [if_neg (by omega), if_neg (by omega), if_neg (by omega)]
  obtain ⟨h1, b, h2, a, _, c, d⟩ := C627_no_leak_partial 4 1 h4 hf (Or.inl (by decide))
  exact ⟨h1, b, h2, a, c, d⟩
example : ∃ h2, (Async.mk' 4 (Heap.empty (α := Int))).2.destroy (Async.mk' 4 (Heap.empty (α := Int))).1 = .ok h2 ∧ (h2.blk 0).isSome := by
  obtain ⟨h2, a, _, b⟩ := C627_no_leak_fails 4 (Heap.empty (α := Int)) (fun _ _ => rfl)
  exact ⟨h2, a, b⟩

/-! ### C628: the least size -/

/-- C628 (`n` not above the size): the buffer has room for `n` cells afterwards. -/
theorem C628_min_size_partial {h : Heap α} {b : Async} {c g : List (Option α)} (B : AHas h b c g) (n : Nat) (hn : n ≤ b.size) :
    ∃ h' b', b.minSize n 1 h = .ok (h', b') ∧ n ≤ b'.size := by
  unfold Async.minSize
  by_cases hc : n < b.size
  · rw [if_pos (Or.inl ⟨by omega, by omega⟩)]
    unfold Async.resize
    rw [if_neg (by omega)]
    obtain ⟨hs, hs', p, q, hp, hq, hplt, hqlt, hb, hbg⟩ := B
    have hpq : q ≠ p := fun e => by subst e; rw [hb] at hbg; simp at hbg
    have e : b.destroy h = .ok ((h.put p none).put q none) := by
      unfold Async.destroy MV.free
      rw [hp, hq]
      simp only [hb, if_true, Res.ok_bind]
      rw [put_other _ _ hpq, hbg]
      rfl
    rw [e]
    refine ⟨_, _, rfl, ?_⟩
    show n ≤ atLeast1 n
    unfold atLeast1; omega
  · rw [if_neg (by omega)]
    exact ⟨h, b, rfl, hn⟩

/-- C628: the comparison is the wrong way round.  Asking for more than the buffer has never gives it, -/
theorem C628_min_size_fails (h : Heap α) (b : Async) (n : Nat) (hn : b.size < n) :
    b.minSize n 1 h = .ok (h, b) ∧ ¬ n ≤ b.size := by
  refine ⟨?_, by omega⟩
  unfold Async.minSize
  rw [if_neg (by omega)]

/-- and asking for less throws away what the buffer holds. -/
theorem C628_min_size_shrinks_fails {h : Heap α} {b : Async} {c g : List (Option α)} (B : AHas h b c g) (n : Nat) (h0 : 0 < n)
    (hn : n < b.size) : ∃ h' b', b.minSize n 1 h = .ok (h', b') ∧ b'.size = n ∧
      AHas h' b' (List.replicate n none) (List.replicate n none) := by
  unfold Async.minSize
  rw [if_pos (Or.inl ⟨by omega, by omega⟩)]
  unfold Async.resize
  rw [if_neg (by omega)]
  obtain ⟨hs, hs', p, q, hp, hq, hplt, hqlt, hb, hbg⟩ := B
  have hpq : q ≠ p := fun e => by subst e; rw [hb] at hbg; simp at hbg
  have e : b.destroy h = .ok ((h.put p none).put q none) := by
    unfold Async.destroy MV.free
    rw [hp, hq]
    simp only [hb, if_true, Res.ok_bind]
    rw [put_other _ _ hpq, hbg]
    rfl
  have hsz : atLeast1 n = n := by unfold atLeast1; omega
  rw [e]
  refine ⟨_, _, rfl, hsz, ?_⟩
  show AHas (Async.fresh (n : Int) ((h.put p none).put q none)).1 (Async.fresh (n : Int) ((h.put p none).put q none)).2 _ _
  unfold Async.fresh
  rw [hsz]
  refine ⟨by simp, by simp, h.next, h.next + 1, rfl, rfl, ?_, ?_, ?_, ?_⟩
  · show h.next < h.next + 1 + 1; omega
  · show h.next + 1 < h.next + 1 + 1; omega
  · rw [alloc_old _ _ _ (by show h.next ≠ h.next + 1; omega)]
    exact alloc_new _ _ _
  · exact alloc_new true n (alloc false n ((h.put p none).put q none))

example : ∃ h' b', Async.minSize (2 : Nat) 1 ⟨some 1, some 2, 3⟩ h4 = .ok (h', b') ∧ 2 ≤ b'.size :=
  C628_min_size_partial h4_has 2 (by decide)
example : Async.minSize (10 : Nat) 1 ⟨some 1, some 2, 3⟩ h4 = .ok (h4, ⟨some 1, some 2, 3⟩) :=
  (C628_min_size_fails h4 ⟨some 1, some 2, 3⟩ 10 (by decide)).1
example : ∃ h' b', Async.minSize (2 : Nat) 1 ⟨some 1, some 2, 3⟩ h4 = .ok (h', b') ∧ b'.size = 2 := by
  obtain ⟨h', b', a, b, _⟩ := C628_min_size_shrinks_fails h4_has 2 (by decide) (by decide)
  exact ⟨h', b', a, b⟩

end Cnine.GB
