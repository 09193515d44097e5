import Verif.Lemmas.Gtensor
import Mathlib.Algebra.Ring.Defs
import Mathlib.Algebra.Ring.Int.Defs

/-!
# Properties of tensors that own an array (include/Gtensor.hpp)
-/

namespace Cnine

variable {α : Type}

namespace GT

/-! ### Construction and access -/

theorem assoc {β γ δ : Type} (x : Res β) (f : β → Res γ) (g : γ → Res δ) : (x >>= f >>= g) = (x >>= fun a => f a >>= g) := by cases x <;> rfl

theorem cond_ok {p : Prop} [Decidable p] (h : p) : Res.assrt (decide p) = .ok () := by rw [decide_eq_true h]; rfl

theorem new_made (junk : Nat → α) {dims : List Nat} (h : dims ≠ []) : ∃ x, new junk dims = .ok x ∧ ∃ f, Is x dims f := by
  refine ⟨_, new_ok junk h, fun ix => junk (position dims ix), h, rfl, rfl, rfl, rfl, rfl, ?_⟩
  refine cell_ext (alloc_length _ _) fun ix hi => ?_
  show (alloc junk dims.prod)[position dims ix]? = _
  unfold alloc
  rw [List.getElem?_map, List.getElem?_range (position_lt hi)]
  rfl

theorem set_is {x : GT α} {dims : List Nat} {f : List Nat → α} (h : Is x dims f) {ix : List Nat} (hi : InRange ix dims) (v : α) :
    Is { x with arr := x.arr.set (position dims ix) v } dims (Function.update f ix v) := by
  refine ⟨h.ne, h.k, h.dims, h.strides, h.asize, h.memsize, ?_⟩
  refine cell_ext (by rw [List.length_set, h.length]) fun jx hj => ?_
  by_cases c : jx = ix
  · subst c
    rw [List.getElem?_set_self (by rw [h.length]; exact position_lt hj), Function.update_self]
  · rw [List.getElem?_set_ne (fun e => c (position_inj hj hi e.symm)), Function.update_of_ne c]
    exact h.cell hj

/-- **C299.** A tensor with at least one axis is made with as many cells as it has entries.  Its entries are stored in row-major order, and all ways to
name an entry (an index, an index in two parts, an index and numbers, numbers alone) read the same entry. -/
theorem C299_get {x : GT α} {dims : List Nat} {f : List Nat → α} (h : Is x dims f) {ix : List Nat} (hi : InRange ix dims) :
    at' x ix = .ok (f ix) ∧ getInts x ix = .ok (f ix) ∧ ∀ a b, ix = a ++ b → get2 x a b = .ok (f ix) ∧ getArr x a b = .ok (f ix) := by
  refine ⟨?_, h.getInts hi, ?_⟩
  · unfold at'
    rw [h.offset hi.length, Res.ok_bind, get_ok (h.cell hi)]
  · rintro a b rfl
    have hl : a.length + b.length = dims.length := by rw [← List.length_append, hi.length]
    have e1 : x.strides.take a.length ++ x.strides.drop a.length = x.strides := List.take_append_drop _ _
    have hs : x.strides.length = dims.length := by rw [h.strides, rmStrides_length]
    have e2 := dot_two (x.strides.take a.length) (x.strides.drop a.length) a b (by simp; omega) (by simp; omega)
    rw [e1, h.strides, dot_rmStrides _ _ hi.length] at e2
    constructor
    · unfold get2 offset2
      rw [show x.k - a.length = b.length by rw [h.k]; omega, h.strides, e2, Res.ok_bind, get_ok (h.cell hi)]
    · unfold getArr
      rw [cond_ok (by rw [h.k]; push_cast [← hl]; omega), Res.ok_bind, show x.k - b.length = a.length by rw [h.k]; omega, h.strides, ← assoc, e2, Res.ok_bind, get_ok (h.cell hi)]

/-- A 2×3 tensor, read in four ways. -/
example : ∃ x : GT Int, ofVec [1, 2, 3, 4, 5, 6] = x ∧ ∃ y, reshapeView x [2, 3] = .ok y ∧ at' y [1, 0] = .ok 4 ∧ getInts y [1, 0] = .ok 4 ∧
    get2 y [1] [0] = .ok 4 ∧ getArr y [1] [0] = .ok 4 := ⟨_, rfl, _, rfl, rfl, rfl, rfl, rfl⟩

/-- … all ways to write an entry change that one only. -/
theorem C299_set {x : GT α} {dims : List Nat} {f : List Nat → α} (h : Is x dims f) {ix : List Nat} (hi : InRange ix dims) (v : α) :
    ∃ y, set x ix v = .ok y ∧ setInts x ix v = .ok y ∧ (∀ a b, ix = a ++ b → set2 x a b v = .ok y) ∧ Is y dims (Function.update f ix v) := by
  refine ⟨_, ?_, setInts_ok h.k h.strides hi.length (h.cell hi), ?_, set_is h hi v⟩
  · unfold GT.set
    rw [h.offset hi.length, Res.ok_bind, wr_ok (h.cell hi)]
    rfl
  · rintro a b rfl
    have hl : a.length + b.length = dims.length := by rw [← List.length_append, hi.length]
    have e1 : x.strides.take a.length ++ x.strides.drop a.length = x.strides := List.take_append_drop _ _
    have hs : x.strides.length = dims.length := by rw [h.strides, rmStrides_length]
    have e2 := dot_two (x.strides.take a.length) (x.strides.drop a.length) a b (by simp; omega) (by simp; omega)
    rw [e1, h.strides, dot_rmStrides _ _ hi.length] at e2
    unfold set2 offset2
    rw [show x.k - a.length = b.length by rw [h.k]; omega]
    simp only [h.strides]
    rw [e2, Res.ok_bind, wr_ok (h.cell hi)]
    rfl

theorem C299_inc [Add α] {x : GT α} {dims : List Nat} {f : List Nat → α} (h : Is x dims f) {ix : List Nat} (hi : InRange ix dims) (v : α) :
    ∃ y, inc x ix v = .ok y ∧ Is y dims (Function.update f ix (f ix + v)) := by
  refine ⟨_, ?_, set_is h hi (f ix + v)⟩
  unfold inc
  rw [h.offset hi.length, Res.ok_bind, get_ok (h.cell hi), Res.ok_bind, wr_ok (h.cell hi)]
  rfl

theorem C299_new (junk : Nat → α) (dims : List Nat) (h : dims ≠ []) :
    ∃ x, new junk dims = .ok x ∧ x.arr.length = dims.prod ∧ ∃ f, Is x dims f := by
  obtain ⟨x, e, f, hf⟩ := new_made junk h
  exact ⟨x, e, hf.length, f, hf⟩

theorem C299_vector [Inhabited α] (v : List α) : Is (ofVec v) [v.length] fun ix => v[ix.headD 0]?.getD default := by
  refine ⟨by simp, rfl, rfl, rfl, by simp [ofVec], by simp [ofVec], ?_⟩
  refine cell_ext (by simp [ofVec]) fun ix hi => ?_
  obtain ⟨i, h, rfl⟩ := of_one hi
  rw [one_pos]
  show v[i]? = _
  rw [List.headD_cons, List.getElem?_eq_getElem h]
  rfl

/-! ### Arrays of tensors -/

theorem roundup_ok (n : Nat) : n ≤ roundup n 32 ∧ roundup n 32 ≤ n + 32 ∧ roundup n 32 % 32 = 0 := by
  unfold roundup
  omega

theorem newArray_ok (junk : Nat → α) {A D : List Nat} (hA : A ≠ []) (hD : D ≠ []) :
    newArray junk A D = .ok ⟨A.length + D.length, A.length, A ++ D, (rmStrides A).map (roundup D.prod 32 * ·) ++ rmStrides D, A.prod * D.prod,
      A.prod * roundup D.prod 32, false, alloc junk (A.prod * roundup D.prod 32)⟩ := by
  cases A with
  | nil => exact absurd rfl hA
  | cons a A =>
    cases D with
    | nil => exact absurd rfl hD
    | cons d D =>
      unfold newArray
      have e : (rmStridesFrom 1 (d :: D)).headD 0 * d = (d :: D).prod := by
        rw [rmStridesFrom_cons, List.headD_cons, Nat.one_mul, List.prod_cons, Nat.mul_comm]
      have e2 : (rmStridesFrom (roundup (d :: D).prod 32) (a :: A)).headD 0 * a = (a :: A).prod * roundup (d :: D).prod 32 := by
        rw [rmStridesFrom_cons, List.headD_cons, List.prod_cons (a := a)]
        ring
      simp only [e, e2, asize_eq, List.prod_append, List.length_append]
      rw [show rmStridesFrom 1 (d :: D) = rmStrides (d :: D) from rfl, strides_from]

/-- **C300.** An array of tensors puts each tensor at a multiple of 32 cells, with less than 32 cells between; different entries have different cells, and reading and writing an entry by
its index, by the array index and the index in the tensor, or by the array index and numbers, concern that entry only. -/
theorem C300_new (junk : Nat → α) {A D : List Nat} (hA : A ≠ []) (hD : D ≠ []) :
    ∃ x, newArray junk A D = .ok x ∧ ∃ p f, p < max D.prod 1 + 32 ∧ IsArr x A D p f := by
  refine ⟨_, newArray_ok junk hA hD, roundup D.prod 32, fun lx => junk (position A (lx.take A.length) * roundup D.prod 32 + position D (lx.drop A.length)),
    (by unfold roundup; omega), hA, hD, roundup_ok _, rfl, rfl, rfl, rfl, rfl, alloc_length _ _, ?_⟩
  intro ix hi jx hj
  show (alloc junk _)[_]? = _
  unfold alloc
  rw [List.getElem?_map, List.getElem?_range (pad_lt (roundup_ok _).1 hi hj), ← hi.length, List.take_left, List.drop_left]
  rfl

theorem IsArr.off {x : GT α} {A D : List Nat} {p : Nat} {f : List Nat → α} (h : IsArr x A D p f) {ix jx : List Nat} (hi : InRange ix A) (hj : InRange jx D) :
    GT.offset x (ix ++ jx) = .ok (position A ix * p + position D jx) := by
  unfold GT.offset
  have hl : x.k = x.strides.length := by rw [h.k, h.strides]; simp
  rw [hl, dot_all _ _ _ (by rw [← hl, h.k, List.length_append, hi.length, hj.length]), h.offset hi.length hj.length, Nat.zero_add]

theorem IsArr.off2 {x : GT α} {A D : List Nat} {p : Nat} {f : List Nat → α} (h : IsArr x A D p f) {ix jx : List Nat} (hi : InRange ix A) (hj : InRange jx D) :
    offset2 x ix jx = .ok (position A ix * p + position D jx) := by
  have e1 : x.strides.take ix.length ++ x.strides.drop ix.length = x.strides := List.take_append_drop _ _
  have hs : x.strides.length = A.length + D.length := by rw [h.strides]; simp
  have h1 := hi.length
  have h2 := hj.length
  have e2 := dot_two (x.strides.take ix.length) (x.strides.drop ix.length) ix jx (by simp; omega) (by simp; omega)
  rw [e1, h.offset h1 h2] at e2
  unfold offset2
  rw [show x.k - ix.length = jx.length by rw [h.k]; omega, e2]

theorem C300_get {x : GT α} {A D : List Nat} {p : Nat} {f : List Nat → α} (h : IsArr x A D p f) {ix jx : List Nat} (hi : InRange ix A) (hj : InRange jx D) :
    at' x (ix ++ jx) = .ok (f (ix ++ jx)) ∧ get2 x ix jx = .ok (f (ix ++ jx)) ∧ getArr x ix jx = .ok (f (ix ++ jx)) := by
  refine ⟨?_, ?_, ?_⟩
  · unfold at'
    rw [h.off hi hj, Res.ok_bind, get_ok (h.arr ix hi jx hj)]
  · unfold get2
    rw [h.off2 hi hj, Res.ok_bind, get_ok (h.arr ix hi jx hj)]
  · have h1 := hi.length
    have h2 := hj.length
    have e := h.off2 hi hj
    unfold offset2 at e
    rw [show x.k - ix.length = jx.length by rw [h.k]; omega] at e
    unfold getArr
    rw [cond_ok (by rw [h.k, h1, h2]; push_cast; omega), Res.ok_bind, show x.k - jx.length = ix.length by rw [h.k]; omega, ← assoc, e, Res.ok_bind,
      get_ok (h.arr ix hi jx hj)]

theorem C300_set {x : GT α} {A D : List Nat} {p : Nat} {f : List Nat → α} (h : IsArr x A D p f) {ix jx : List Nat} (hi : InRange ix A) (hj : InRange jx D)
    (v : α) : ∃ y, set x (ix ++ jx) v = .ok y ∧ set2 x ix jx v = .ok y ∧ IsArr y A D p (Function.update f (ix ++ jx) v) := by
  refine ⟨{ x with arr := x.arr.set (position A ix * p + position D jx) v }, ?_, ?_, h.neA, h.neD, h.pad, h.k, h.dims, h.strides, h.asize, h.memsize,
    by simp [h.length], ?_⟩
  · unfold GT.set
    rw [h.off hi hj, Res.ok_bind, wr_ok (h.arr ix hi jx hj)]
    rfl
  · unfold set2
    rw [h.off2 hi hj, Res.ok_bind, wr_ok (h.arr ix hi jx hj)]
    rfl
  · intro ix' hi' jx' hj'
    show (x.arr.set _ v)[_]? = _
    by_cases c : ix' ++ jx' = ix ++ jx
    · obtain ⟨rfl, rfl⟩ := List.append_inj c (by rw [hi'.length, hi.length])
      rw [List.getElem?_set_self (by rw [h.length]; exact pad_lt h.pad.1 hi hj), Function.update_self]
    · rw [Function.update_of_ne c, List.getElem?_set_ne, h.arr ix' hi' jx' hj']
      intro e
      obtain ⟨rfl, rfl⟩ := pad_inj h.pad.1 hi hj hi' hj' e
      exact c rfl

/-- Two 3×3 matrices: the second one starts at cell 32. -/
example : ∃ x : GT Int, newArray (fun i => (i : Int)) [2] [3, 3] = .ok x ∧ x.memsize = 64 ∧ at' x [1, 0, 0] = .ok 32 ∧ get2 x [1] [2, 1] = .ok 39 :=
  ⟨_, rfl, rfl, rfl, rfl⟩

/-- **C301 (the full claim is false).** Tensors with no axes, arrays of them, and slices that fix all axes, are numbers: each of the three writes or reads
outside the vector of strides. -/
theorem C301_scalar_fails (junk : Nat → α) : new junk [] = .ub ∧ ∀ a A, newArray junk (a :: A) [] = .ub := ⟨rfl, fun _ _ => rfl⟩

theorem C301_slice_fails : ∃ x : GT Int, new (fun _ => 0) [2, 2] = .ok x ∧ slice (fun _ => 0) x [1, 1] = .ub := ⟨_, rfl, rfl⟩

/-! ### Copies -/

/-- **C302 (the full claim is false).** A copy of a tensor has the same entries: the copy of an array of tensors has memory for the entries without the
padding, but is written with it; a converted array is read outside its memory. -/
theorem C302_copy_fails : ∃ x : GT Int, newArray (fun i => (i : Int)) [2] [3] = .ok x ∧ copy (fun _ => 0) x = .ub ∧
    ∃ y, convert (fun _ => 0) (fun v => v) x = .ok y ∧ at' y [1, 0] = .ub := ⟨_, rfl, rfl, _, rfl, rfl⟩

/-- It holds for tensors that are not arrays.  What is missing: arrays. -/
theorem C302_copy_partial {x : GT α} {dims : List Nat} {f : List Nat → α} (h : Is x dims f) (junk : Nat → α) :
    ∃ y, copy junk x = .ok y ∧ Is y dims f ∧ y.isView = false := by
  refine ⟨⟨x.k, x.ak, x.dims, x.strides, x.asize, x.memsize, false, x.arr⟩, ?_, ⟨h.ne, h.k, h.dims, h.strides, h.asize, h.memsize, h.arr⟩, rfl⟩
  unfold copy copyCells
  have e := h.length
  rw [if_pos ⟨by rw [h.memsize]; omega, by rw [h.memsize, alloc_length, h.asize]; omega⟩, Res.ok_bind]
  simp only [List.take_zero, List.drop_zero, List.nil_append, Nat.zero_add]
  rw [List.take_of_length_le (by rw [h.memsize]; omega), List.drop_of_length_le (by rw [h.memsize, alloc_length, h.asize]), List.append_nil]

theorem C302_convert_partial {β : Type} {x : GT α} {dims : List Nat} {f : List Nat → α} (h : Is x dims f) (junk : Nat → β) (c : α → β) :
    ∃ y, convert junk c x = .ok y ∧ Is y dims fun ix => c (f ix) := by
  refine ⟨⟨x.k, 0, x.dims, x.strides, x.asize, x.asize, false, _⟩, ?_, ⟨h.ne, h.k, h.dims, h.strides, h.asize, h.asize, rfl⟩⟩
  unfold convert
  rw [h.asize, fill_new dims _ (alloc_length _ _) (fun ix => c (f ix))]
  · rfl
  · intro ix hi b hl v hv
    rw [get_ok (h.cell hi), Res.ok_bind, wr_ok hv]

example : ∃ x : GT Int, new (fun i => (i : Int)) [2, 2] = .ok x ∧ ∃ y, copy (fun _ => 0) x = .ok y ∧ y.arr = [0, 1, 2, 3] := ⟨_, rfl, _, rfl, rfl⟩

/-- **C303 (the full claim is false).** After an assignment the left side has the entries of the right side: when both are the same object, the array is
deleted before it is copied (or, in a view, replaced by a new one that is not filled); the version that moves loses the array. -/
theorem C303_assign_fails : ∃ x : GT Int, new (fun i => (i : Int)) [2] = .ok x ∧ assign (fun _ => 7) x x true = .ub ∧
    (∃ v, flatView x = .ok v ∧ ∃ w, assign (fun _ => 7) v v true = .ok w ∧ v.arr = [0, 1] ∧ w.arr = [7, 7]) ∧ (moveAssign x true).arr = [] :=
  ⟨_, rfl, rfl, ⟨_, rfl, _, rfl, rfl, rfl⟩, rfl⟩

/-- It holds for two objects, also for arrays.  What is missing: assignments to itself. -/
theorem C303_assign_partial {x : GT α} {dims : List Nat} {f : List Nat → α} (h : Is x dims f) (t : GT α) (junk : Nat → α) :
    (∃ y, assign junk t x false = .ok y ∧ Is y dims f) ∧ Is (moveAssign x false) dims f := by
  refine ⟨⟨⟨x.k, x.ak, x.dims, x.strides, x.asize, x.memsize, t.isView, x.arr⟩, ?_, ⟨h.ne, h.k, h.dims, h.strides, h.asize, h.memsize, h.arr⟩⟩, h⟩
  unfold assign copyCells
  have e := h.length
  rw [if_neg (by simp), if_pos ⟨by rw [h.memsize]; omega, by rw [alloc_length]; omega⟩, Res.ok_bind]
  simp only [List.take_zero, List.drop_zero, List.nil_append, Nat.zero_add]
  rw [List.take_of_length_le (by rw [h.memsize]; omega), List.drop_of_length_le (by rw [alloc_length]), List.append_nil]

theorem C303_assign_array_partial {x : GT α} {A D : List Nat} {p : Nat} {f : List Nat → α} (h : IsArr x A D p f) (t : GT α) (junk : Nat → α) :
    ∃ y, assign junk t x false = .ok y ∧ IsArr y A D p f := by
  refine ⟨⟨x.k, x.ak, x.dims, x.strides, x.asize, x.memsize, t.isView, x.arr⟩, ?_,
    ⟨h.neA, h.neD, h.pad, h.k, h.dims, h.strides, h.asize, h.memsize, h.length, h.arr⟩⟩
  unfold assign copyCells
  have e := h.length
  rw [if_neg (by simp), if_pos ⟨by rw [h.memsize]; omega, by rw [alloc_length]; omega⟩, Res.ok_bind]
  simp only [List.take_zero, List.drop_zero, List.nil_append, Nat.zero_add]
  rw [List.take_of_length_le (by rw [h.memsize]; omega), List.drop_of_length_le (by rw [alloc_length]), List.append_nil]

/-! ### Elementwise operations -/

/-- **C304.** The operations that make a new tensor from the entries of one or two tensors of the same dims (sums, differences, products, quotients,
multiples, conjugates…) apply the operation entry by entry, whatever the new memory held. -/
theorem C304_map {β : Type} {x : GT α} {dims : List Nat} {f : List Nat → α} (h : Is x dims f) (junk : Nat → β) (c : α → β) :
    ∃ y, map junk c x = .ok y ∧ Is y dims fun ix => c (f ix) := by
  refine ⟨_, ?_, new_is h.ne (fun ix => c (f ix)) false⟩
  unfold map
  rw [h.dims, new_ok junk h.ne, Res.ok_bind, h.asize, fill_new dims _ (alloc_length _ _) (fun ix => c (f ix))]
  · rfl
  · intro ix hi b hl v hv
    rw [get_ok (h.cell hi), Res.ok_bind, wr_ok hv]

theorem C304_zip {x y : GT α} {dims : List Nat} {f g : List Nat → α} (h : Is x dims f) (h' : Is y dims g) (junk : Nat → α) (op : α → α → α) :
    (∃ z, zip junk op x y = .ok z ∧ Is z dims fun ix => op (f ix) (g ix)) ∧ ∃ z, odot junk op x y = .ok z ∧ Is z dims fun ix => op (f ix) (g ix) := by
  have key : (loop x.asize (alloc junk dims.prod) fun i a => do
      let u ← Res.get x.arr i
      let v ← Res.get y.arr i
      wr a i (op u v)) = Res.ok ((allIndices dims).map fun ix => op (f ix) (g ix)) := by
    rw [h.asize, fill_new dims _ (alloc_length _ _) (fun ix => op (f ix) (g ix))]
    intro ix hi b hl v hv
    rw [get_ok (h.cell hi), Res.ok_bind, get_ok (h'.cell hi), Res.ok_bind, wr_ok hv]
  refine ⟨⟨_, ?_, new_is h.ne (fun ix => op (f ix) (g ix)) false⟩, ⟨_, ?_, new_is h.ne (fun ix => op (f ix) (g ix)) false⟩⟩
  · unfold GT.zip
    rw [cond_ok (by rw [h.asize, h'.asize]), Res.ok_bind, h.dims, new_ok junk h.ne, Res.ok_bind, key]
    rfl
  · unfold odot
    rw [cond_ok (by rw [h.dims, h'.dims]), Res.ok_bind, h.dims, new_ok junk h.ne, Res.ok_bind, key]
    rfl

example : ∃ x y : GT Int, new (fun i => (i : Int)) [2, 2] = .ok x ∧ new (fun i => 10 * (i : Int)) [2, 2] = .ok y ∧ ∃ z, zip (fun _ => 99) (· + ·) x y = .ok z ∧
    z.arr = [0, 11, 22, 33] := ⟨_, _, rfl, rfl, _, rfl, rfl⟩

/-- **C305 (the full claim is false).** The same holds for arrays of tensors: the loops go over the first cells of the padded memory, as many as there are
entries, so that a sum mixes padding with entries and `+=` leaves entries out. -/
theorem C305_arrays_fails : ∃ x y : GT Int, newArray (fun i => (i : Int)) [2] [3] = .ok x ∧ newArray (fun i => 1000 * (i : Int)) [2] [3] = .ok y ∧
    at' x [1, 0] = .ok 32 ∧ at' y [1, 0] = .ok 32000 ∧ (∃ z, zip (fun _ => 0) (· + ·) x y = .ok z ∧ at' z [1, 0] = .ok 3003) ∧
    ∃ t, update (· + ·) x y = .ok t ∧ at' t [1, 0] = .ok 32 := ⟨_, _, rfl, rfl, rfl, rfl, ⟨_, rfl, rfl⟩, _, rfl, rfl⟩

/-- **C306 (the full claim is false).** Two tensors are equal only if their dims and entries are: the dims are not compared. -/
theorem C306_eq_fails : ∃ x y : GT Int, new (fun i => (i : Int)) [2, 3] = .ok x ∧ new (fun i => (i : Int)) [3, 2] = .ok y ∧ eq x y = .ok true ∧ at' x [1, 0] = .ok 3 ∧
    at' y [1, 0] = .ok 2 := ⟨_, _, rfl, rfl, rfl, rfl, rfl⟩

theorem eq_run [DecidableEq α] (u v : List α) (n : Nat) (b : Bool) (h1 : n ≤ u.length) (h2 : n ≤ v.length) :
    (loop n b fun i b => if b then do
      let p ← Res.get u i
      let q ← Res.get v i
      .ok (decide (p = q))
    else .ok false) = Res.ok (b && decide (u.take n = v.take n)) := by
  induction n with
  | zero => simp [loop]
  | succ n ih =>
    have ih := ih (by omega) (by omega)
    simp only [loop, List.range_succ, Res.forM_append] at ih ⊢
    rw [ih, Res.ok_bind, Res.forM_cons]
    simp only [Res.forM_nil]
    rw [bind_ok]
    have e1 : u[n]? = some u[n] := List.getElem?_eq_getElem (by omega)
    have e2 : v[n]? = some v[n] := List.getElem?_eq_getElem (by omega)
    have hl : (u.take n).length = (v.take n).length := by simp; omega
    rw [List.take_add_one, List.take_add_one, e1, e2]
    simp only [Option.toList_some, Res.get, e1, e2, Res.ok_bind]
    have key : (u.take n ++ [u[n]] = v.take n ++ [v[n]]) ↔ (u.take n = v.take n ∧ u[n] = v[n]) :=
      ⟨fun h => ⟨(List.append_inj h hl).1, by simpa using (List.append_inj h hl).2⟩, fun h => by rw [h.1, h.2]⟩
    simp only [key]
    by_cases c : u.take n = v.take n <;> cases b <;> simp [c]

/-- For tensors of the same dims it says whether all entries are the same.  What is missing: tensors of different dims with as many entries. -/
theorem C306_eq_partial [DecidableEq α] {x y : GT α} {dims : List Nat} {f g : List Nat → α} (h : Is x dims f) (h' : Is y dims g) :
    ∃ b, eq x y = .ok b ∧ (b = true ↔ ∀ ix, InRange ix dims → f ix = g ix) := by
  refine ⟨decide (x.arr = y.arr), ?_, ?_⟩
  · unfold eq
    rw [if_neg (by rw [h.asize, h'.asize]; simp), eq_run _ _ _ _ (by rw [h.asize, h.length]) (by rw [h.asize, h'.length]), Bool.true_and,
      List.take_of_length_le (by rw [h.asize, h.length]), List.take_of_length_le (by rw [h.asize, h'.length])]
  · rw [decide_eq_true_iff, h.arr, h'.arr, List.map_inj_left]
    exact ⟨fun a ix hi => a ix (mem_allIndices.2 hi), fun a ix hi => a ix (mem_allIndices.1 hi)⟩

example : ∃ x y : GT Int, new (fun i => (i : Int)) [2, 2] = .ok x ∧ new (fun _ => 1) [2, 2] = .ok y ∧ eq x x = .ok true ∧ eq x y = .ok false :=
  ⟨_, _, rfl, rfl, rfl, rfl⟩

/-- **C307.** The operations in place (`+=`, `-=`, `*=`, `add`, `subtract`, products added, multiples) change each entry as they should. -/
theorem C307_update {t x : GT α} {dims : List Nat} {f g : List Nat → α} (h : Is t dims f) (h' : Is x dims g) (op : α → α → α) :
    ∃ s, update op t x = .ok s ∧ Is s dims fun ix => op (f ix) (g ix) := by
  refine ⟨{ t with arr := (allIndices dims).map fun ix => op (f ix) (g ix) }, ?_, ⟨h.ne, h.k, h.dims, h.strides, h.asize, h.memsize, rfl⟩⟩
  unfold update
  rw [cond_ok (by rw [h.asize, h'.asize]), Res.ok_bind, h.asize, h.arr, fill_upd dims f (fun ix v => op v (g ix))]
  · rfl
  · intro ix hi b hl v hv
    rw [get_ok hv, Res.ok_bind, get_ok (h'.cell hi), Res.ok_bind, wr_ok hv]

theorem C307_scale {t : GT α} {dims : List Nat} {f : List Nat → α} (h : Is t dims f) (op : α → α) :
    ∃ s, scale op t = .ok s ∧ Is s dims fun ix => op (f ix) := by
  refine ⟨{ t with arr := (allIndices dims).map fun ix => op (f ix) }, ?_, ⟨h.ne, h.k, h.dims, h.strides, h.asize, h.memsize, rfl⟩⟩
  unfold scale
  rw [h.asize, h.arr, fill_upd dims f (fun ix v => op v)]
  · rfl
  · intro ix hi b hl v hv
    rw [get_ok hv, Res.ok_bind, wr_ok hv]

theorem C307_add_odot [Add α] {t x y : GT α} {dims : List Nat} {f g g' : List Nat → α} (h : Is t dims f) (hx : Is x dims g) (hy : Is y dims g')
    (op : α → α → α) : ∃ s, addOdot op t x y = .ok s ∧ Is s dims fun ix => f ix + op (g ix) (g' ix) := by
  refine ⟨{ t with arr := (allIndices dims).map fun ix => f ix + op (g ix) (g' ix) }, ?_, ⟨h.ne, h.k, h.dims, h.strides, h.asize, h.memsize, rfl⟩⟩
  unfold addOdot
  rw [cond_ok (by rw [h.asize, hx.asize]), Res.ok_bind, cond_ok (by rw [h.asize, hy.asize]), Res.ok_bind, h.asize, h.arr,
    fill_upd dims f (fun ix v => v + op (g ix) (g' ix))]
  · rfl
  · intro ix hi b hl v hv
    rw [get_ok hv, Res.ok_bind, get_ok (hx.cell hi), Res.ok_bind, get_ok (hy.cell hi), Res.ok_bind, wr_ok hv]

example : ∃ x y : GT Int, new (fun i => (i : Int)) [2, 2] = .ok x ∧ new (fun i => 10 * (i : Int)) [2, 2] = .ok y ∧ ∃ z, update (fun a b => a - b) y x = .ok z ∧
    z.arr = [0, 9, 18, 27] := ⟨_, _, rfl, rfl, _, rfl, rfl⟩

/-- **C308.** The square of the norm, inner products (with or without the conjugate) and the square of the distance are the sums over all entries. -/
theorem C308_sums [Ring α] {x y : GT α} {dims : List Nat} {f g : List Nat → α} (h : Is x dims f) (h' : Is y dims g) (cj : α → α) :
    norm2 x = .ok ((allIndices dims).map fun ix => f ix * f ix).sum ∧
    inp cj x y = .ok ((allIndices dims).map fun ix => f ix * cj (g ix)).sum ∧
    diff2 x y = .ok ((allIndices dims).map fun ix => (f ix - g ix) * (f ix - g ix)).sum := by
  refine ⟨?_, ?_, ?_⟩
  · unfold norm2
    rw [h.asize]
    refine total_ix dims _ _ fun ix hi => ?_
    rw [get_ok (h.cell hi)]; rfl
  · unfold inp
    rw [cond_ok (by rw [h.asize, h'.asize]), Res.ok_bind, h.asize]
    refine total_ix dims _ _ fun ix hi => ?_
    rw [get_ok (h.cell hi), Res.ok_bind, get_ok (h'.cell hi)]; rfl
  · unfold diff2
    rw [cond_ok (by rw [h.dims, h'.dims]), Res.ok_bind, cond_ok (by rw [h.asize, h'.asize]), Res.ok_bind, h.asize]
    refine total_ix dims _ _ fun ix hi => ?_
    rw [get_ok (h.cell hi), Res.ok_bind, get_ok (h'.cell hi)]; rfl

example : ∃ x : GT Int, new (fun i => (i : Int)) [2, 2] = .ok x ∧ norm2 x = .ok 14 := ⟨_, rfl, rfl⟩

/-! ### Products -/

/-- **C309.** `operator*` is the product of matrices, or of a matrix and a vector; `matmul_TA` and `contract_0_0` are the product of the transpose of the
first matrix and the second. -/
theorem C309_mul [Semiring α] {x y : GT α} {n m l : Nat} {f g : List Nat → α} (hx : Is x [n, m] f) (hy : Is y [m, l] g) (junk : Nat → α) :
    ∃ z h, mul junk x y = .ok z ∧ Is z [n, l] h ∧ ∀ i < n, ∀ j < l, h [i, j] = ((List.range m).map fun p => f [i, p] * g [p, j]).sum := by
  refine ⟨_, _, ?_, new_is (by simp) (fun lx : List Nat => (fun ix jx : List Nat => ((List.range m).map fun p =>
    f [ix.headD 0, p] * g [p, jx.headD 0]).sum) (lx.take [n].length) (lx.drop [n].length)) false, fun i _ j _ => rfl⟩
  unfold mul
  rw [hx.dims, hy.dims]
  simp only [List.length_cons, List.length_nil, Nat.zero_add, Nat.reduceAdd, decide_true, Res.assrt_true, Res.ok_bind]
  rw [get_ok (show [n, m][0]? = some n from rfl), Res.ok_bind, get_ok (show [n, m][1]? = some m from rfl), Res.ok_bind,
    get_ok (show [m, l][0]? = some m from rfl), Res.ok_bind, cond_ok rfl, Res.ok_bind, if_neg (by decide),
    get_ok (show [m, l][1]? = some l from rfl), Res.ok_bind, new_ok junk (by simp), Res.ok_bind]
  have := two_new (fun b => (⟨2, 0, [n, l], rmStrides [n, l], [n, l].prod, [n, l].prod, false, b⟩ : GT α)) [n] [l] (alloc junk [n, l].prod)
    (alloc_length _ _) (fun ix jx : List Nat => ((List.range m).map fun p => f [ix.headD 0, p] * g [p, jx.headD 0]).sum)
    (fun i j R => do
      let t ← total m fun p => do
        let u ← getInts x [i, p]
        let v ← getInts y [p, j]
        .ok (u * v)
      setInts R [i, j] t) (by
    intro ix hi jx hj b hl v hv
    obtain ⟨i, hi', rfl⟩ := of_one hi
    obtain ⟨j, hj', rfl⟩ := of_one hj
    rw [one_pos, one_pos, total_ok m _ (fun p => f [i, p] * g [p, j]), Res.ok_bind]
    · exact setInts_ok (dims := [n, l]) rfl rfl rfl hv
    · intro p hp
      rw [hx.getInts (in_two hi' hp), Res.ok_bind, hy.getInts (in_two hp hj')]
      rfl)
  rw [one, one] at this
  exact this

theorem C309_mul_vec [Semiring α] {x y : GT α} {n m : Nat} {f g : List Nat → α} (hx : Is x [n, m] f) (hy : Is y [m] g) (junk : Nat → α) :
    ∃ z h, mul junk x y = .ok z ∧ Is z [n] h ∧ ∀ i < n, h [i] = ((List.range m).map fun p => f [i, p] * g [p]).sum := by
  refine ⟨_, _, ?_, new_is (by simp) (fun ix : List Nat => ((List.range m).map fun p => f [ix.headD 0, p] * g [p]).sum) false, fun i _ => rfl⟩
  unfold mul
  rw [hx.dims, hy.dims]
  simp only [List.length_cons, List.length_nil, Nat.zero_add, Nat.reduceAdd, decide_true, Res.assrt_true, Res.ok_bind]
  rw [get_ok (show [n, m][0]? = some n from rfl), Res.ok_bind, get_ok (show [n, m][1]? = some m from rfl), Res.ok_bind,
    get_ok (show [m][0]? = some m from rfl), Res.ok_bind, cond_ok rfl, Res.ok_bind, if_pos trivial, new_ok junk (by simp), Res.ok_bind]
  have key := sets_run (fun b => (⟨1, 0, [n], rmStrides [n], [n].prod, [n].prod, false, b⟩ : GT α)) (fun i : Nat => i)
    (fun i _ => ((List.range m).map fun p => f [i, p] * g [p]).sum) (fun R i => do
      let t ← total m fun p => do
        let u ← getInts x [i, p]
        let v ← getInts y [p]
        .ok (u * v)
      setInts R [i] t) (List.range n) (alloc junk [n].prod) (by simpa using List.nodup_range) (by simp [alloc]) (by
    intro i hi b hl v hv
    have hi' := List.mem_range.mp hi
    rw [total_ok m _ (fun p => f [i, p] * g [p]), Res.ok_bind]
    · have := setInts_ok (x := (⟨1, 0, [n], rmStrides [n], [n].prod, [n].prod, false, b⟩ : GT α)) (dims := [n]) (ix := [i])
        (v := ((List.range m).map fun p => f [i, p] * g [p]).sum) rfl rfl rfl (by rw [one_pos]; exact hv)
      rw [one_pos] at this
      exact this
    · intro p hp
      rw [hx.getInts (in_two hi' hp), Res.ok_bind, hy.getInts (in_one hp)]
      rfl)
  obtain ⟨b, e, h1, h2, _⟩ := key
  show loop n _ _ = _
  unfold loop
  refine e.trans ?_
  congr 2
  refine cell_ext (by rw [h1, alloc_length]) fun ix hi => ?_
  obtain ⟨i, hi', rfl⟩ := of_one hi
  rw [one_pos]
  exact h2 i (by simpa using hi') _ (List.getElem?_eq_getElem (by rw [alloc_length, one]; exact hi'))

theorem C309_mul_TA [Semiring α] {x y : GT α} {n m l : Nat} {f g : List Nat → α} (hx : Is x [m, n] f) (hy : Is y [m, l] g) (junk : Nat → α) :
    ∃ z h, mulTA junk x y = .ok z ∧ Is z [n, l] h ∧ ∀ i < n, ∀ j < l, h [i, j] = ((List.range m).map fun p => f [p, i] * g [p, j]).sum := by
  refine ⟨_, _, ?_, new_is (by simp) (fun lx : List Nat => (fun ix jx : List Nat => ((List.range m).map fun p =>
    f [p, ix.headD 0] * g [p, jx.headD 0]).sum) (lx.take [n].length) (lx.drop [n].length)) false, fun i _ j _ => rfl⟩
  unfold mulTA
  rw [hx.dims, hy.dims]
  simp only [List.length_cons, List.length_nil, Nat.zero_add, Nat.reduceAdd, decide_true, Res.assrt_true, Res.ok_bind]
  rw [get_ok (show [m, n][0]? = some m from rfl), Res.ok_bind, get_ok (show [m, l][0]? = some m from rfl), Res.ok_bind, cond_ok rfl, Res.ok_bind,
    get_ok (show [m, n][1]? = some n from rfl), Res.ok_bind, get_ok (show [m, l][1]? = some l from rfl), Res.ok_bind, new_ok junk (by simp), Res.ok_bind]
  have := two_new (fun b => (⟨2, 0, [n, l], rmStrides [n, l], [n, l].prod, [n, l].prod, false, b⟩ : GT α)) [n] [l] (alloc junk [n, l].prod)
    (alloc_length _ _) (fun ix jx : List Nat => ((List.range m).map fun p => f [p, ix.headD 0] * g [p, jx.headD 0]).sum)
    (fun i j R => do
      let t ← total m fun p => do
        let u ← getInts x [p, i]
        let v ← getInts y [p, j]
        .ok (u * v)
      setInts R [i, j] t) (by
    intro ix hi jx hj b hl v hv
    obtain ⟨i, hi', rfl⟩ := of_one hi
    obtain ⟨j, hj', rfl⟩ := of_one hj
    rw [one_pos, one_pos, total_ok m _ (fun p => f [p, i] * g [p, j]), Res.ok_bind]
    · exact setInts_ok (dims := [n, l]) rfl rfl rfl hv
    · intro p hp
      rw [hx.getInts (in_two hp hi'), Res.ok_bind, hy.getInts (in_two hp hj')]
      rfl)
  rw [one, one] at this
  exact this

/-- A 2×2 matrix times itself, times a vector, and its transpose times itself. -/
example : ∃ x : GT Int, new (fun i => (i : Int) + 1) [2, 2] = .ok x ∧ (∃ z, mul (fun _ => 99) x x = .ok z ∧ z.arr = [7, 10, 15, 22]) ∧
    (∃ z, mul (fun _ => 99) x (ofVec [1, 10]) = .ok z ∧ z.arr = [21, 43]) ∧ ∃ z, mulTA (fun _ => 99) x x = .ok z ∧ z.arr = [10, 14, 14, 20] :=
  ⟨_, rfl, ⟨_, rfl, rfl⟩, ⟨_, rfl, rfl⟩, _, rfl, rfl⟩

theorem geti_ok {β : Type} {l : List β} {i : Int} {j : Nat} {v : β} (e : i = j) (h : l[j]? = some v) : geti l i = .ok v := by
  unfold geti
  rw [if_neg (by omega), e, Int.toNat_natCast]
  exact get_ok h

theorem idiv_ok (a : Nat) {b : Nat} (h : 0 < b) : idiv (a * b) b = .ok a := by
  unfold idiv
  rw [if_neg (by omega), Nat.mul_div_cancel _ h]

/-- The strides used by the products of tensors. -/
theorem row_stride {X Y : List Nat} (hX : X ≠ []) : (rmStrides (X ++ Y))[X.length - 1]? = some Y.prod := by
  have h0 : 0 < X.length := List.length_pos_iff.mpr hX
  rw [strides_get (by simp; omega), Nat.sub_add_cancel h0, List.drop_left]

/-- **C310.** `add_matmul(x,y)` adds the contraction of the last axis of `x` with the first axis of `y`, for any numbers of other axes (at least one in
`x`). -/
theorem C310_add_matmul [Semiring α] {t x y : GT α} {X Y : List Nat} {K : Nat} {f g h : List Nat → α} (hX : X ≠ []) (hK : 0 < K)
    (ht : Is t (X ++ Y) h) (hx : Is x (X ++ [K]) f) (hy : Is y (K :: Y) g) :
    ∃ s h', addMatmul t x y = .ok s ∧ Is s (X ++ Y) h' ∧ ∀ ix, InRange ix X → ∀ jx, InRange jx Y →
      h' (ix ++ jx) = h (ix ++ jx) + ((List.range K).map fun p => f (ix ++ [p]) * g (p :: jx)).sum := by
  have h0 : 0 < X.length := List.length_pos_iff.mpr hX
  refine ⟨{ t with arr := (allIndices (X ++ Y)).map fun lx => (fun (ix jx : List Nat) (v : α) => v + ((List.range K).map fun p =>
      f (ix ++ [p]) * g (p :: jx)).sum) (lx.take X.length) (lx.drop X.length) (h lx) }, _, ?_, ⟨ht.ne, ht.k, ht.dims, ht.strides, ht.asize, ht.memsize, rfl⟩, ?_⟩
  · unfold addMatmul
    rw [cond_ok (by rw [ht.k, hx.k, hy.k]; simp; omega), Res.ok_bind,
      geti_ok (j := X.length) (v := K) (by rw [hx.k]; simp) (by rw [hx.dims]; simp), Res.ok_bind,
      show x.asize = X.prod * K by rw [hx.asize]; simp, idiv_ok _ hK, Res.ok_bind, get_ok (show y.dims[0]? = some K by rw [hy.dims]; rfl), Res.ok_bind,
      show y.asize = Y.prod * K by rw [hy.asize, List.prod_cons, Nat.mul_comm], idiv_ok _ hK, Res.ok_bind, cond_ok rfl, Res.ok_bind,
      cond_ok (by rw [ht.asize, List.prod_append]), Res.ok_bind,
      geti_ok (j := X.length - 1) (v := K) (by rw [hx.k]; simp; omega) (by rw [hx.strides, row_stride hX]; simp), Res.ok_bind,
      geti_ok (j := X.length - 1) (v := Y.prod) (by rw [hx.k]; simp; omega) (by rw [ht.strides, row_stride hX]), Res.ok_bind,
      get_ok (show y.strides[0]? = some Y.prod by rw [hy.strides, rmStrides_cons]; rfl), Res.ok_bind, ht.arr]
    have key := two_upd (fun a : List α => a) X Y h (fun ix jx v => v + ((List.range K).map fun p => f (ix ++ [p]) * g (p :: jx)).sum)
      (fun i j a => do
        let s ← total K fun p => do
          let u ← Res.get x.arr (i * K + p)
          let v ← Res.get y.arr (p * Y.prod + j)
          .ok (u * v)
        let o ← Res.get a (Y.prod * i + j)
        wr a (Y.prod * i + j) (o + s)) (by
      intro ix hi jx hj b hl v hv
      have e : Y.prod * position X ix + position Y jx = position (X ++ Y) (ix ++ jx) := by rw [position_app hi.length, Nat.mul_comm]
      rw [total_ok K _ (fun p => f (ix ++ [p]) * g (p :: jx)), Res.ok_bind, e, get_ok hv, Res.ok_bind, wr_ok hv]
      intro p hp
      have e1 : position X ix * K + p = position (X ++ [K]) (ix ++ [p]) := by rw [position_app hi.length, one, one_pos]
      rw [e1, get_ok (hx.cell (inRange_app hi (in_one hp))), Res.ok_bind]
      have e2 : p * Y.prod + position Y jx = position (K :: Y) (p :: jx) := rfl
      rw [e2, get_ok (hy.cell (List.Forall₂.cons hp hj))]
      rfl)
    rw [key]
    rfl
  · intro ix hi jx hj
    show (fun (ix jx : List Nat) (v : α) => _) ((ix ++ jx).take X.length) ((ix ++ jx).drop X.length) (h (ix ++ jx)) = _
    rw [← hi.length, List.take_left, List.drop_left]

/-- A 1×2 matrix times a 2×1×2 tensor, added to zeros. -/
example : ∃ t x y s : GT Int, zeros (fun _ => 0) [1, 1, 2] = .ok t ∧ new (fun i => (i : Int) + 1) [1, 2] = .ok x ∧
    new (fun i => (i : Int) + 1) [2, 1, 2] = .ok y ∧ addMatmul t x y = .ok s ∧ s.arr = [7, 10] := ⟨_, _, _, _, rfl, rfl, rfl, rfl, rfl⟩

/-- **C311 (the full claim is false).** The same holds when `x` is a vector: the stride before its first one is read. -/
theorem C311_add_matmul_vec_fails : ∃ t x y : GT Int, new (fun _ => 0) [2] = .ok t ∧ new (fun i => (i : Int)) [3] = .ok x ∧
    new (fun i => (i : Int)) [3, 2] = .ok y ∧ addMatmul t x y = .ub := ⟨_, _, _, rfl, rfl, rfl, rfl⟩

/-- **C312.** `add_matmul_AH(g,y)` and `add_matmul_HA(x,g)` add the contractions of `g` with the conjugate of the other factor of `add_matmul`: the sum
over the axes that `g` shares with it. -/
theorem C312_AH [Semiring α] (cj : α → α) {t g y : GT α} {X Y : List Nat} {K : Nat} {f h e : List Nat → α} (hX : X ≠ []) (hK : 0 < K)
    (ht : Is t (X ++ [K]) h) (hg : Is g (X ++ Y) f) (hy : Is y (K :: Y) e) :
    ∃ s h', addMatmulAH cj t g y = .ok s ∧ Is s (X ++ [K]) h' ∧ ∀ ix, InRange ix X → ∀ p < K,
      h' (ix ++ [p]) = h (ix ++ [p]) + ((allIndices Y).map fun jx => f (ix ++ jx) * cj (e (p :: jx))).sum := by
  have h0 : 0 < X.length := List.length_pos_iff.mpr hX
  refine ⟨{ t with arr := (allIndices (X ++ [K])).map fun lx => (fun (ix px : List Nat) (v : α) => v + ((allIndices Y).map fun jx =>
      f (ix ++ jx) * cj (e (px ++ jx))).sum) (lx.take X.length) (lx.drop X.length) (h lx) }, _, ?_, ⟨ht.ne, ht.k, ht.dims, ht.strides, ht.asize, ht.memsize, rfl⟩, ?_⟩
  · unfold addMatmulAH
    rw [cond_ok (by rw [ht.k, hg.k, hy.k]; simp; omega), Res.ok_bind,
      geti_ok (j := X.length) (v := K) (by rw [ht.k]; simp) (by rw [ht.dims]; simp), Res.ok_bind,
      show t.asize = X.prod * K by rw [ht.asize]; simp, idiv_ok _ hK, Res.ok_bind, get_ok (show y.dims[0]? = some K by rw [hy.dims]; rfl), Res.ok_bind,
      show y.asize = Y.prod * K by rw [hy.asize, List.prod_cons, Nat.mul_comm], idiv_ok _ hK, Res.ok_bind, cond_ok rfl, Res.ok_bind,
      cond_ok (by rw [hg.asize, List.prod_append]), Res.ok_bind,
      geti_ok (j := X.length - 1) (v := K) (by rw [ht.k]; simp; omega) (by rw [ht.strides, row_stride hX]; simp), Res.ok_bind,
      geti_ok (j := X.length - 1) (v := Y.prod) (by rw [ht.k]; simp; omega) (by rw [hg.strides, row_stride hX]), Res.ok_bind,
      get_ok (show y.strides[0]? = some Y.prod by rw [hy.strides, rmStrides_cons]; rfl), Res.ok_bind, ht.arr]
    have key := two_upd (fun a : List α => a) X [K] h (fun ix px v => v + ((allIndices Y).map fun jx => f (ix ++ jx) * cj (e (px ++ jx))).sum)
      (fun i p a => do
        let s ← total Y.prod fun j => do
          let u ← Res.get g.arr (Y.prod * i + j)
          let v ← Res.get y.arr (p * Y.prod + j)
          .ok (u * cj v)
        let o ← Res.get a (K * i + p)
        wr a (K * i + p) (o + s)) (by
      intro ix hi px hp' b hl v hv
      obtain ⟨p, hp, rfl⟩ := of_one hp'
      have e' : K * position X ix + position [K] [p] = position (X ++ [K]) (ix ++ [p]) := by rw [position_app hi.length, one, Nat.mul_comm]
      rw [total_ix Y _ (fun jx => f (ix ++ jx) * cj (e ([p] ++ jx))), Res.ok_bind, e', get_ok hv, Res.ok_bind, wr_ok hv]
      intro jx hj
      have e1 : Y.prod * position X ix + position Y jx = position (X ++ Y) (ix ++ jx) := by rw [position_app hi.length, Nat.mul_comm]
      rw [e1, get_ok (hg.cell (inRange_app hi hj)), Res.ok_bind, one_pos]
      have e2 : p * Y.prod + position Y jx = position (K :: Y) (p :: jx) := rfl
      rw [e2, get_ok (hy.cell (List.Forall₂.cons hp hj))]
      rfl)
    rw [one] at key
    rw [key]
    rfl
  · intro ix hi p hp
    show (fun (ix jx : List Nat) (v : α) => _) ((ix ++ [p]).take X.length) ((ix ++ [p]).drop X.length) (h (ix ++ [p])) = _
    rw [← hi.length, List.take_left, List.drop_left]
    rfl

theorem C312_HA [Semiring α] (cj : α → α) {t x g : GT α} {X Y : List Nat} {K : Nat} {f h e : List Nat → α} (hX : X ≠ []) (hK : 0 < K)
    (ht : Is t (K :: Y) h) (hx : Is x (X ++ [K]) e) (hg : Is g (X ++ Y) f) :
    ∃ s h', addMatmulHA cj t x g = .ok s ∧ Is s (K :: Y) h' ∧ ∀ p < K, ∀ jx, InRange jx Y →
      h' (p :: jx) = h (p :: jx) + ((allIndices X).map fun ix => cj (e (ix ++ [p])) * f (ix ++ jx)).sum := by
  have h0 : 0 < X.length := List.length_pos_iff.mpr hX
  refine ⟨{ t with arr := (allIndices (K :: Y)).map fun lx => (fun (px jx : List Nat) (v : α) => v + ((allIndices X).map fun ix =>
      cj (e (ix ++ px)) * f (ix ++ jx)).sum) (lx.take 1) (lx.drop 1) (h lx) }, _, ?_, ⟨ht.ne, ht.k, ht.dims, ht.strides, ht.asize, ht.memsize, rfl⟩, ?_⟩
  · unfold addMatmulHA
    rw [cond_ok (by rw [ht.k, hg.k, hx.k]; simp; omega), Res.ok_bind,
      geti_ok (j := X.length) (v := K) (by rw [hx.k]; simp) (by rw [hx.dims]; simp), Res.ok_bind,
      show x.asize = X.prod * K by rw [hx.asize]; simp, idiv_ok _ hK, Res.ok_bind, get_ok (show t.dims[0]? = some K by rw [ht.dims]; rfl), Res.ok_bind,
      show t.asize = Y.prod * K by rw [ht.asize, List.prod_cons, Nat.mul_comm], idiv_ok _ hK, Res.ok_bind, cond_ok rfl, Res.ok_bind,
      cond_ok (by rw [hg.asize, List.prod_append]), Res.ok_bind,
      geti_ok (j := X.length - 1) (v := K) (by rw [hx.k]; simp; omega) (by rw [hx.strides, row_stride hX]; simp), Res.ok_bind,
      geti_ok (j := X.length - 1) (v := Y.prod) (by rw [hx.k]; simp; omega) (by rw [hg.strides, row_stride hX]), Res.ok_bind,
      get_ok (show t.strides[0]? = some Y.prod by rw [ht.strides, rmStrides_cons]; rfl), Res.ok_bind, ht.arr]
    have key := two_upd (fun a : List α => a) [K] Y h (fun px jx v => v + ((allIndices X).map fun ix => cj (e (ix ++ px)) * f (ix ++ jx)).sum)
      (fun p j a => do
        let s ← total X.prod fun i => do
          let u ← Res.get x.arr (i * K + p)
          let v ← Res.get g.arr (Y.prod * i + j)
          .ok (cj u * v)
        let o ← Res.get a (p * Y.prod + j)
        wr a (p * Y.prod + j) (o + s)) (by
      intro px hp' jx hj b hl v hv
      obtain ⟨p, hp, rfl⟩ := of_one hp'
      rw [one_pos]
      have e' : p * Y.prod + position Y jx = position ([K] ++ Y) ([p] ++ jx) := rfl
      rw [total_ix X _ (fun ix => cj (e (ix ++ [p])) * f (ix ++ jx)), Res.ok_bind, e', get_ok hv, Res.ok_bind, wr_ok hv]
      intro ix hi
      have e1 : Y.prod * position X ix + position Y jx = position (X ++ Y) (ix ++ jx) := by rw [position_app hi.length, Nat.mul_comm]
      have e2 : position X ix * K + p = position (X ++ [K]) (ix ++ [p]) := by rw [position_app hi.length, one, one_pos]
      rw [e2, get_ok (hx.cell (inRange_app hi (in_one hp))), Res.ok_bind, e1, get_ok (hg.cell (inRange_app hi hj))]
      rfl)
    rw [one] at key
    erw [key]
    rfl
  · intro p hp jx hj
    rfl

example : ∃ t g y s : GT Int, zeros (fun _ => 0) [1, 2] = .ok t ∧ new (fun i => (i : Int) + 1) [1, 3] = .ok g ∧
    new (fun i => (i : Int) + 1) [2, 3] = .ok y ∧ addMatmulAH (fun v => v) t g y = .ok s ∧ s.arr = [14, 32] := ⟨_, _, _, _, rfl, rfl, rfl, rfl, rfl⟩

/-! ### Slices -/

theorem copy_get {src dst out : List α} {s n d : Nat} (h : copyCells src s n dst d = .ok out) :
    out.length = dst.length ∧ ∀ i, out[i]? = if d ≤ i ∧ i < d + n then src[s + (i - d)]? else dst[i]? := by
  unfold copyCells at h
  split at h
  · rename_i c
    obtain ⟨c1, c2⟩ := c
    cases h
    refine ⟨by simp; omega, fun i => ?_⟩
    have l1 : (dst.take d).length = d := by simp; omega
    have l2 : ((src.drop s).take n).length = n := by simp; omega
    rw [List.append_assoc]
    by_cases a : i < d
    · rw [List.getElem?_append_left (by omega), if_neg (by omega), List.getElem?_take_of_lt a]
    · rw [List.getElem?_append_right (by omega), l1]
      by_cases b : i < d + n
      · rw [if_pos ⟨by omega, b⟩, List.getElem?_append_left (by omega), List.getElem?_take_of_lt (by omega), List.getElem?_drop]
      · rw [if_neg (by omega), List.getElem?_append_right (by omega), l2, List.getElem?_drop]
        congr 1
        omega
  · cases h

theorem copy_ok {src dst : List α} {s n d : Nat} (h1 : s + n ≤ src.length) (h2 : d + n ≤ dst.length) : ∃ out, copyCells src s n dst d = .ok out := by
  unfold copyCells
  rw [if_pos ⟨h1, h2⟩]
  exact ⟨_, rfl⟩

theorem lead_ok (x : GT α) {A D ix : List Nat} {sa sb : List Nat} (hs : x.strides = sa ++ sb) (ha : sa.length = A.length) (hi : InRange ix A) :
    lead x ix = .ok (dot sa ix) := by
  unfold lead
  have h := hi.length
  rw [dot_run x.strides ix 0 ix.length (by rw [hs]; simp; omega) le_rfl, hs, List.take_length, h, ← ha, List.take_left, Nat.zero_add]

theorem lead_is {x : GT α} {A D ix : List Nat} {f : List Nat → α} (hx : Is x (A ++ D) f) (hi : InRange ix A) : lead x ix = .ok (position A ix * D.prod) := by
  have hs : x.strides = rmStridesFrom D.prod A ++ rmStrides D := by
    rw [hx.strides]
    clear hi hx
    induction A with
    | nil => rfl
    | cons a A ih => rw [List.cons_append, rmStrides_cons, ih, rmStridesFrom_cons, List.prod_append, Nat.mul_comm]; rfl
  rw [lead_ok x (D := D) hs (by simp) hi, dot_rmStridesFrom _ _ _ hi.length, Nat.mul_comm]

theorem lead_arr {x : GT α} {A D ix : List Nat} {p : Nat} {f : List Nat → α} (hx : IsArr x A D p f) (hi : InRange ix A) :
    lead x ix = .ok (position A ix * p) := by
  rw [lead_ok x (D := D) hx.strides (by simp) hi, ← strides_from, dot_rmStridesFrom _ _ _ hi.length, Nat.mul_comm]

theorem chunk_ok (A D : List Nat) (n : Nat) (h : n = A.length) : gvChunk (A ++ D) (n : Nat) (-1) = .ok D := by
  subst h
  unfold gvChunk
  simp only [List.length_append]
  have e0 : ¬ ((A.length : Int) < 0) := by omega
  simp only [if_neg e0, if_true]
  have e1 : ¬ ((A.length : Int) < 0 ∨ ((A.length + D.length : Nat) : Int) < A.length + ((A.length + D.length : Nat) - (A.length : Int))) := by omega
  have e2 : ¬ (((A.length + D.length : Nat) - (A.length : Int)) < 0) := by omega
  rw [if_neg e1, if_neg e2, Int.toNat_natCast, List.drop_left, show ((A.length + D.length : Nat) - (A.length : Int)).toNat = D.length by omega,
    List.take_length]

theorem slice_of {x : GT α} {A D ix : List Nat} {q : Nat} {f : List Nat → α} (hD : D ≠ []) (hd : x.dims = A ++ D) (hl : lead x ix = .ok (position A ix * q))
    (hn : ix.length = A.length) (hb : position A ix * q + D.prod ≤ x.arr.length)
    (hc : ∀ jx, InRange jx D → x.arr[position A ix * q + position D jx]? = some (f (ix ++ jx))) (junk : Nat → α) :
    ∃ y, slice junk x ix = .ok y ∧ Is y D fun jx => f (ix ++ jx) := by
  obtain ⟨out, e⟩ := copy_ok (src := x.arr) (dst := alloc junk D.prod) (s := position A ix * q) (n := D.prod) (d := 0) hb
    (by rw [alloc_length]; omega)
  obtain ⟨h1, h2⟩ := copy_get e
  refine ⟨⟨D.length, 0, D, rmStrides D, D.prod, D.prod, false, out⟩, ?_, hD, rfl, rfl, rfl, rfl, rfl, ?_⟩
  · unfold slice
    rw [hd, chunk_ok A D _ hn, Res.ok_bind, new_ok junk hD, Res.ok_bind, hl, Res.ok_bind]
    simp only [asize_eq]
    rw [e]
    rfl
  · refine cell_ext (by rw [h1, alloc_length]) fun jx hj => ?_
    rw [h2, if_pos ⟨Nat.zero_le _, by rw [Nat.zero_add]; exact position_lt hj⟩, Nat.sub_zero]
    exact hc jx hj

/-- **C313.** `slice(ix)` is the tensor of the entries whose first indices are `ix`, for tensors and for arrays of tensors; `set_slice` writes these entries
and no others. -/
theorem C313_slice {x : GT α} {A D ix : List Nat} {f : List Nat → α} (hD : D ≠ []) (hx : Is x (A ++ D) f) (hi : InRange ix A) (junk : Nat → α) :
    ∃ y, slice junk x ix = .ok y ∧ Is y D fun jx => f (ix ++ jx) := by
  refine slice_of hD hx.dims (lead_is hx hi) hi.length ?_ ?_ junk
  · rw [hx.length, List.prod_append]
    calc position A ix * D.prod + D.prod = (position A ix + 1) * D.prod := by ring
      _ ≤ A.prod * D.prod := Nat.mul_le_mul_right _ (position_lt hi)
  · intro jx hj
    rw [← position_app hi.length]
    exact hx.cell (inRange_app hi hj)

theorem C313_slice_array {x : GT α} {A D ix : List Nat} {p : Nat} {f : List Nat → α} (hx : IsArr x A D p f) (hi : InRange ix A) (junk : Nat → α) :
    ∃ y, slice junk x ix = .ok y ∧ Is y D fun jx => f (ix ++ jx) := by
  refine slice_of hx.neD hx.dims (lead_arr hx hi) hi.length ?_ (hx.arr ix hi) junk
  rw [hx.length]
  have := hx.pad.1
  calc position A ix * p + D.prod ≤ position A ix * p + p := by omega
    _ = (position A ix + 1) * p := by ring
    _ ≤ A.prod * p := Nat.mul_le_mul_right _ (position_lt hi)

theorem C313_set_slice {t y : GT α} {A D ix : List Nat} {f g : List Nat → α} (ht : Is t (A ++ D) f) (hy : Is y D g) (hi : InRange ix A) :
    ∃ s h, setSlice t ix y = .ok s ∧ Is s (A ++ D) h ∧ ∀ ix', InRange ix' A → ∀ jx, InRange jx D →
      h (ix' ++ jx) = if ix' = ix then g jx else f (ix' ++ jx) := by
  have hb : position A ix * D.prod + D.prod ≤ t.arr.length := by
    rw [ht.length, List.prod_append]
    calc position A ix * D.prod + D.prod = (position A ix + 1) * D.prod := by ring
      _ ≤ A.prod * D.prod := Nat.mul_le_mul_right _ (position_lt hi)
  obtain ⟨out, e⟩ := copy_ok (src := y.arr) (dst := t.arr) (s := 0) (n := D.prod) (d := position A ix * D.prod) (by rw [hy.length]; omega) hb
  obtain ⟨h1, h2⟩ := copy_get e
  refine ⟨{ t with arr := out }, fun lx => if lx.take A.length = ix then g (lx.drop A.length) else f lx, ?_,
    ⟨ht.ne, ht.k, ht.dims, ht.strides, ht.asize, ht.memsize, ?_⟩, ?_⟩
  · unfold setSlice
    rw [lead_is ht hi, Res.ok_bind, hy.asize, e]
    rfl
  · refine cell_ext (by rw [h1, ht.length]) fun lx hl => ?_
    obtain ⟨p1, p2⟩ := inRange_split hl
    have e1 : position (A ++ D) lx = position A (lx.take A.length) * D.prod + position D (lx.drop A.length) := by
      conv_lhs => rw [← List.take_append_drop A.length lx]
      exact position_app p1.length
    have b1 := position_lt p2
    rw [h2]
    by_cases c : lx.take A.length = ix
    · rw [if_pos c, if_pos (by rw [e1, c]; constructor <;> omega), e1, c, Nat.zero_add, Nat.add_sub_cancel_left]
      exact hy.cell p2
    · rw [if_neg c, if_neg, ht.cell hl]
      rintro ⟨a, b⟩
      rw [e1] at a b
      apply c
      apply position_inj p1 hi
      have q1 : position A ix ≤ position A (lx.take A.length) := by
        by_contra n
        have : (position A (lx.take A.length) + 1) * D.prod ≤ position A ix * D.prod := Nat.mul_le_mul_right _ (by omega)
        rw [Nat.add_mul] at this
        omega
      have q2 : position A (lx.take A.length) ≤ position A ix := by
        by_contra n
        have : (position A ix + 1) * D.prod ≤ position A (lx.take A.length) * D.prod := Nat.mul_le_mul_right _ (by omega)
        rw [Nat.add_mul] at this
        omega
      omega
  · intro ix' hi' jx hj
    show (if (ix' ++ jx).take A.length = ix then g ((ix' ++ jx).drop A.length) else _) = _
    rw [← hi'.length, List.take_left, List.drop_left]

example : ∃ x y : GT Int, new (fun i => (i : Int)) [2, 3] = .ok x ∧ slice (fun _ => 99) x [1] = .ok y ∧ y.arr = [3, 4, 5] ∧
    ∃ s, setSlice x [0] y = .ok s ∧ s.arr = [3, 4, 5, 3, 4, 5] := ⟨_, _, rfl, rfl, rfl, _, rfl, rfl⟩

/-! ### Views -/

/-- **C314.** A view with other dims (as many entries; `flat_view` is the one with one axis) shows the entries in the same order, and what is written through
it is written to the entry shown. Other dims are refused. -/
theorem C314_reshape {x : GT α} {dims dims' : List Nat} {f : List Nat → α} (hx : Is x dims f) (hd : dims' ≠ []) (hp : dims'.prod = dims.prod) :
    ∃ y g, reshapeView x dims' = .ok y ∧ Is y dims' g ∧ y.isView = true ∧
      (∀ ix, InRange ix dims → ∀ jx, InRange jx dims' → position dims ix = position dims' jx → g jx = f ix ∧
        ∀ v, ∃ y', set y jx v = .ok y' ∧ Is { x with arr := y'.arr } dims (Function.update f ix v)) := by
  have hr : reshapeView x dims' = .ok ⟨dims'.length, 0, dims', rmStrides dims', dims'.prod, x.memsize, true, x.arr⟩ := by
    cases dims' with
    | nil => exact absurd rfl hd
    | cons d ds =>
      unfold reshapeView
      have e : (rmStridesFrom 1 (d :: ds)).headD 0 * d = (d :: ds).prod := by
        rw [rmStridesFrom_cons, List.headD_cons, Nat.one_mul, List.prod_cons, Nat.mul_comm]
      simp only [e]
      rw [cond_ok (by rw [hp, hx.asize]), Res.ok_bind]
      rfl
  have hg : Is (⟨dims'.length, 0, dims', rmStrides dims', dims'.prod, x.memsize, true, x.arr⟩ : GT α) dims'
      fun jx => f ((allIndices dims)[position dims' jx]?.getD []) := by
    refine ⟨hd, rfl, rfl, rfl, rfl, by rw [hp]; exact hx.memsize, ?_⟩
    refine cell_ext (by show x.arr.length = _; rw [hx.length, hp]) fun jx hj => ?_
    show x.arr[_]? = _
    obtain ⟨ix, h1, h2⟩ := surj (dims := dims) (i := position dims' jx) (by rw [← hp]; exact position_lt hj)
    rw [← h2, hx.cell h1, pick h1]
    rfl
  refine ⟨_, _, hr, hg, rfl, fun ix hi jx hj e => ⟨?_, fun v => ?_⟩⟩
  · rw [← e, pick hi]; rfl
  · refine ⟨⟨dims'.length, 0, dims', rmStrides dims', dims'.prod, x.memsize, true, x.arr.set (position dims ix) v⟩, ?_, ?_⟩
    · unfold GT.set
      rw [hg.offset hj.length, Res.ok_bind, wr_ok (hg.cell hj), e]
      rfl
    · exact set_is hx hi v

theorem C314_refused {x : GT α} {dims dims' : List Nat} {f : List Nat → α} (hx : Is x dims f) (hd : dims' ≠ []) (hp : dims'.prod ≠ dims.prod) :
    reshapeView x dims' = .throw := by
  cases dims' with
  | nil => exact absurd rfl hd
  | cons d ds =>
    unfold reshapeView
    have e : (rmStridesFrom 1 (d :: ds)).headD 0 * d = (d :: ds).prod := by
      rw [rmStridesFrom_cons, List.headD_cons, Nat.one_mul, List.prod_cons, Nat.mul_comm]
    simp only [e]
    rw [show decide ((d :: ds).prod = x.asize) = false from decide_eq_false (by rw [hx.asize]; exact hp)]
    rfl

theorem C314_flat {x : GT α} {dims : List Nat} {f : List Nat → α} (hx : Is x dims f) :
    ∃ y g, flatView x = .ok y ∧ Is y [dims.prod] g ∧ ∀ ix, InRange ix dims → g [position dims ix] = f ix := by
  obtain ⟨y, g, e, h1, _, h2⟩ := C314_reshape hx (dims' := [dims.prod]) (by simp) (by simp)
  refine ⟨y, g, ?_, h1, fun ix hi => (h2 ix hi [position dims ix] (in_one (position_lt hi)) (one_pos _ _).symm).1⟩
  unfold flatView
  rw [hx.asize]
  exact e

example : ∃ x y : GT Int, new (fun i => (i : Int)) [2, 3] = .ok x ∧ reshapeView x [3, 2] = .ok y ∧ at' x [1, 0] = .ok 3 ∧ at' y [1, 1] = .ok 3 ∧
    reshapeView x [4] = .throw := ⟨_, _, rfl, rfl, rfl, rfl, rfl⟩

/-- **C315 (the full claim is false).** The same holds for views of arrays: the padding is not skipped. -/
theorem C315_view_of_array_fails : ∃ x y : GT Int, newArray (fun i => (i : Int)) [2] [3] = .ok x ∧ flatView x = .ok y ∧ at' x [1, 0] = .ok 32 ∧
    at' y [3] = .ok 3 := ⟨_, _, rfl, rfl, rfl, rfl⟩

/-! ### Printing and filling -/

/-- **C316 (the full claim is false).** Printing a tensor lists every entry once, in order: with seven axes a loop counts one variable and tests another,
and never ends; with more, nothing is printed. -/
theorem C316_str_fails : (∃ x : GT Int, new (fun i => (i : Int)) [1, 1, 1, 1, 1, 1, 1] = .ok x ∧ str x = .ub) ∧
    ∃ x : GT Int, new (fun i => (i : Int)) [1, 1, 1, 1, 1, 1, 1, 1] = .ok x ∧ str x = .ok [] := ⟨⟨_, rfl, rfl⟩, _, rfl, rfl⟩

theorem print_run {x : GT α} {dims : List Nat} {f : List Nat → α} (hx : Is x dims f) : ∀ (ds P pre : List Nat), dims = P ++ ds → InRange pre P →
    printLoop x ds pre = .ok ((allIndices ds).map fun jx => f (pre ++ jx)) := by
  intro ds
  induction ds with
  | nil =>
    intro P pre e hp
    rw [List.append_nil] at e
    subst e
    unfold printLoop
    rw [(C299_get hx hp).1, Res.ok_bind]
    simp [allIndices]
  | cons d ds ih =>
    intro P pre e hp
    unfold printLoop
    have key : ∀ n ≤ d, (loop n ([] : List α) fun i out => do
        let r ← printLoop x ds (pre ++ [i])
        .ok (out ++ r)) = Res.ok (((List.range n).flatMap fun i => (allIndices ds).map (i :: ·)).map fun jx => f (pre ++ jx)) := by
      intro n
      induction n with
      | zero => intro _; rfl
      | succ n ihn =>
        intro hn
        have ihn := ihn (by omega)
        simp only [loop, List.range_succ, Res.forM_append] at ihn ⊢
        rw [ihn, Res.ok_bind, Res.forM_cons, ih (P ++ [d]) (pre ++ [n]) (by rw [e]; simp) (inRange_app hp (in_one (by omega)))]
        simp [List.flatMap_append, Function.comp_def]
    exact key d le_rfl

/-- It holds for one to six axes.  What is missing: other numbers of axes. -/
theorem C316_str_partial {x : GT α} {dims : List Nat} {f : List Nat → α} (hx : Is x dims f) (h6 : dims.length ≤ 6) :
    str x = .ok ((allIndices dims).map f) := by
  have hk := hx.k
  have h0 : 0 < dims.length := List.length_pos_iff.mpr hx.ne
  have hp := print_run hx dims [] [] rfl List.Forall₂.nil
  simp only [List.nil_append] at hp
  unfold str
  obtain h | h | h | h | h | h : x.k = 1 ∨ x.k = 2 ∨ x.k = 3 ∨ x.k = 4 ∨ x.k = 5 ∨ x.k = 6 := by omega
  · rw [h]
    obtain ⟨d, rfl⟩ : ∃ d, dims = [d] := List.length_eq_one_iff.mp (by omega)
    rw [hx.dims]
    show (loop d [] fun j out => _) = _
    have key : ∀ n ≤ d, (loop n ([] : List α) fun j out => do
        let v ← Res.get x.arr j
        .ok (out ++ [v])) = Res.ok ((List.range n).map fun i => f [i]) := by
      intro n
      induction n with
      | zero => intro _; rfl
      | succ n ihn =>
        intro hn
        have ihn := ihn (by omega)
        simp only [loop, List.range_succ, Res.forM_append] at ihn ⊢
        have hc := hx.cell (in_one (show n < d by omega))
        rw [one_pos] at hc
        rw [ihn, Res.ok_bind, Res.forM_cons, get_ok hc]
        simp
    rw [key d le_rfl]
    congr 1
    simp only [allIndices, List.map_flatMap, List.map_cons, List.map_nil]
    exact (List.flatMap_pure_eq_map _ _).symm
  all_goals rw [h, hx.dims]; exact hp

example : ∃ x : GT Int, new (fun i => (i : Int)) [2, 1, 2] = .ok x ∧ str x = .ok [0, 1, 2, 3] := ⟨_, rfl, rfl⟩

/-- **C317.** The fills: zeros; the numbers 0, 1, 2… in row-major order; the identity matrix (and only square matrices). -/
theorem C317_zeros [Zero α] (junk : Nat → α) {dims : List Nat} (h : dims ≠ []) : ∃ x, zeros junk dims = .ok x ∧ Is x dims fun _ => 0 := by
  refine ⟨_, ?_, new_is h (fun _ => 0) false⟩
  unfold zeros
  rw [new_ok junk h, Res.ok_bind]
  simp only [List.map_const', allIndices_length]

theorem C317_sequential [NatCast α] (junk : Nat → α) {dims : List Nat} (h : dims ≠ []) :
    ∃ x, sequential junk dims = .ok x ∧ Is x dims fun ix => (position dims ix : α) := by
  refine ⟨_, ?_, new_is h (fun ix => (position dims ix : α)) false⟩
  unfold sequential
  rw [new_ok junk h, Res.ok_bind]
  simp only
  rw [fill_new dims _ (alloc_length _ _) (fun ix => (position dims ix : α))]
  · rfl
  · intro ix hi b hl v hv
    rw [wr_ok hv]

theorem C317_identity [Zero α] [One α] (junk : Nat → α) (n m : Nat) :
    (n ≠ m → ident junk [n, m] = .throw) ∧ ∃ x h, ident junk [n, n] = .ok x ∧ Is x [n, n] h ∧ ∀ i < n, ∀ j < n, h [i, j] = if i = j then 1 else 0 := by
  constructor
  · intro c
    unfold ident
    rw [new_ok junk (by simp), Res.ok_bind]
    simp only
    rw [cond_ok (show [n, m].length = 2 from rfl), Res.ok_bind, get_ok (show [n, m][0]? = some n from rfl), Res.ok_bind,
      get_ok (show [n, m][1]? = some m from rfl), Res.ok_bind, decide_eq_false c]
    rfl
  · obtain ⟨b, e, h1, h2, h3⟩ := sets_run (fun b : List α => b) (fun i : Nat => i * (n + 1)) (fun _ _ => 1) (fun a i => wr a (i * (n + 1)) 1)
      (List.range n) (List.replicate (n * n) 0) (by
        refine List.Nodup.map ?_ List.nodup_range
        intro i j e
        exact Nat.eq_of_mul_eq_mul_right (Nat.succ_pos n) e) (by
        intro i hi
        have hi := List.mem_range.mp hi
        rw [List.length_replicate]
        calc i * (n + 1) = i * n + i := by ring
          _ < i * n + n := by omega
          _ = (i + 1) * n := by ring
          _ ≤ n * n := Nat.mul_le_mul_right _ hi) (by
        intro i _ b _ v hv
        exact wr_ok hv)
    refine ⟨⟨2, 0, [n, n], rmStrides [n, n], [n, n].prod, [n, n].prod, false, b⟩, fun ix => if ix.headD 0 = ix.getLastD 0 then 1 else 0, ?_,
      ⟨by simp, rfl, rfl, rfl, rfl, rfl, ?_⟩, fun i _ j _ => rfl⟩
    · unfold ident
      rw [new_ok junk (by simp), Res.ok_bind]
      simp only
      rw [cond_ok (show [n, n].length = 2 from rfl), Res.ok_bind, get_ok (show [n, n][0]? = some n from rfl), Res.ok_bind,
        get_ok (show [n, n][1]? = some n from rfl), Res.ok_bind, cond_ok rfl, Res.ok_bind]
      have ep : [n, n].prod = n * n := by simp
      simp only [ep]
      unfold loop
      rw [e]
      rfl
    · refine cell_ext (by rw [h1]; simp) fun ix hi => ?_
      obtain ⟨i, j, rfl⟩ : ∃ i j, ix = [i, j] := by
        have := hi.length
        match ix, this with
        | [i, j], _ => exact ⟨i, j, rfl⟩
      have hi1 : i < n := by cases hi with | cons a _ => exact a
      have hj1 : j < n := by cases hi with | cons _ a => cases a with | cons a _ => exact a
      have ep : position [n, n] [i, j] = i * n + j := by simp [position]
      show b[_]? = some (if i = j then 1 else 0)
      rw [ep]
      by_cases c : i = j
      · subst c
        rw [if_pos rfl, show i * n + i = i * (n + 1) by ring]
        refine h2 i (by simpa using hi1) 0 ?_
        rw [List.getElem?_replicate, if_pos]
        calc i * (n + 1) = i * n + i := by ring
          _ < i * n + n := by omega
          _ = (i + 1) * n := by ring
          _ ≤ n * n := Nat.mul_le_mul_right _ hi1
      · rw [if_neg c, h3, List.getElem?_replicate, if_pos]
        · calc i * n + j < i * n + n := by omega
            _ = (i + 1) * n := by ring
            _ ≤ n * n := Nat.mul_le_mul_right _ hi1
        · intro hm
          obtain ⟨q, hq, e⟩ := List.mem_map.mp hm
          have hq := List.mem_range.mp hq
          have e : q * n + q = i * n + j := by rw [← e]; ring
          have e1 : q = i := by
            have a1 : (q * n + q) / n = q := by rw [Nat.mul_comm, Nat.mul_add_div (by omega), Nat.div_eq_of_lt hq, Nat.add_zero]
            have a2 : (i * n + j) / n = i := by rw [Nat.mul_comm, Nat.mul_add_div (by omega), Nat.div_eq_of_lt hj1, Nat.add_zero]
            rw [← a1, e, a2]
          subst e1
          exact c (Nat.add_left_cancel e)

example : ∃ x : GT Int, ident (fun _ => 99) [2, 2] = .ok x ∧ x.arr = [1, 0, 0, 1] := ⟨_, rfl, rfl⟩

/-- **C318 (the full claim is false).** `ReLU()` replaces the negative entries by 0: it prints that it is not implemented and returns memory that nobody has
written. -/
theorem C318_relu_fails : ∃ x : GT Int, new (fun _ => 1) [2] = .ok x ∧ ∀ v : Int, ∃ y, relu (fun _ => v) x = .ok y ∧ at' y [0] = .ok v :=
  ⟨_, rfl, fun _ => ⟨_, rfl, rfl⟩⟩

/-! ### Sizes that do not fit -/

theorem cond_no {p : Prop} [Decidable p] (h : ¬ p) : Res.assrt (decide p) = .throw := by rw [decide_eq_false h]; rfl

theorem throw_bind {β γ : Type} (f : β → Res γ) : ((.throw : Res β) >>= f) = .throw := rfl

/-- **C319.** Arguments whose sizes do not fit are refused: operations on two or three tensors need as many entries in each (`odot` and `diff2` the same
dims), and products need matrices, and the same length of the contracted axes. -/
theorem C319_entries [Ring α] {x y z : GT α} {X Y Z : List Nat} {f g h : List Nat → α} (hx : Is x X f) (hy : Is y Y g) (hz : Is z Z h) (junk : Nat → α) (cj : α → α)
    (op : α → α → α) : (X.prod ≠ Y.prod → zip junk op x y = .throw ∧ update op x y = .throw ∧ inp cj x y = .throw ∧ addOdot op x y z = .throw ∧
      addOdot op x z y = .throw) ∧ (X ≠ Y → odot junk op x y = .throw ∧ diff2 x y = .throw) := by
  refine ⟨fun n => ?_, fun n => ?_⟩
  · have e : ¬ x.asize = y.asize := by rw [hx.asize, hy.asize]; exact n
    have e' : ¬ y.asize = x.asize := fun c => e c.symm
    unfold GT.zip update inp addOdot
    rw [cond_no e, cond_no e']
    refine ⟨rfl, rfl, rfl, rfl, ?_⟩
    by_cases c : z.asize = x.asize
    · rw [cond_ok c]; rfl
    · rw [cond_no c]; rfl
  · have e : ¬ x.dims = y.dims := by rw [hx.dims, hy.dims]; exact n
    unfold odot diff2
    rw [cond_no e, cond_no fun c => e c.symm]
    exact ⟨rfl, rfl⟩

theorem C319_matrices [Semiring α] {x y : GT α} {X Y : List Nat} {f g : List Nat → α} (hx : Is x X f) (hy : Is y Y g) (junk : Nat → α) :
    (X.length ≠ 2 → mul junk x y = .throw ∧ mulTA junk x y = .throw) ∧ (2 < Y.length → mul junk x y = .throw) ∧ (Y.length ≠ 2 → mulTA junk x y = .throw) ∧
    (∀ n m p Y', X = [n, m] → Y = p :: Y' → (m ≠ p → mul junk x y = .throw) ∧ (n ≠ p → mulTA junk x y = .throw)) := by
  have key : ∀ n m p Y', X = [n, m] → Y = p :: Y' → m ≠ p → mul junk x y = .throw := by
    rintro n m p Y' rfl rfl c
    unfold mul
    rw [hx.dims, hy.dims, cond_ok (show [n, m].length = 2 from rfl), Res.ok_bind, get_ok (show [n, m][0]? = some n from rfl), Res.ok_bind,
      get_ok (show [n, m][1]? = some m from rfl), Res.ok_bind, get_ok (show (p :: Y')[0]? = some p from rfl), Res.ok_bind, cond_no c]
    rfl
  have k2 : X.length ≠ 2 → mul junk x y = .throw ∧ mulTA junk x y = .throw := by
    intro c
    unfold mul mulTA
    rw [hx.dims, cond_no c]
    exact ⟨rfl, rfl⟩
  have k3 : Y.length ≠ 2 → mulTA junk x y = .throw := by
    intro c
    by_cases d : X.length = 2
    · unfold mulTA
      rw [hx.dims, hy.dims, cond_ok d, Res.ok_bind, cond_no c]
      rfl
    · exact (k2 d).2
  refine ⟨k2, ?_, k3, ?_⟩
  · intro c
    by_cases d : X.length = 2
    · obtain ⟨n, m, rfl⟩ : ∃ n m, X = [n, m] := List.length_eq_two.mp d
      obtain ⟨p, Y', rfl⟩ : ∃ p Y', Y = p :: Y' := List.exists_cons_of_ne_nil hy.ne
      by_cases e : m = p
      · unfold mul
        rw [hx.dims, hy.dims, cond_ok (show [n, m].length = 2 from rfl), Res.ok_bind, get_ok (show [n, m][0]? = some n from rfl), Res.ok_bind,
          get_ok (show [n, m][1]? = some m from rfl), Res.ok_bind, get_ok (show (p :: Y')[0]? = some p from rfl), Res.ok_bind, cond_ok e, Res.ok_bind,
          if_neg (by omega), cond_no (by omega)]
        rfl
      · exact key n m p Y' rfl rfl e
    · exact (k2 d).1
  · rintro n m p Y' rfl rfl
    refine ⟨key n m p Y' rfl rfl, fun c => ?_⟩
    by_cases d : (p :: Y').length = 2
    · unfold mulTA
      rw [hx.dims, hy.dims, cond_ok (show [n, m].length = 2 from rfl), Res.ok_bind, cond_ok d, Res.ok_bind, get_ok (show [n, m][0]? = some n from rfl), Res.ok_bind,
        get_ok (show (p :: Y')[0]? = some p from rfl), Res.ok_bind, cond_no c]
      rfl
    · exact k3 d

theorem C319_add_matmul [Semiring α] (cj : α → α) {t x y : GT α} {T X Y : List Nat} {K L : Nat} {f g h : List Nat → α} (ht : Is t T h) (hx : Is x (X ++ [K]) f)
    (hy : Is y (L :: Y) g) (hK : 0 < K) (hL : 0 < L) (hd : K ≠ L) : addMatmul t x y = .throw ∧ addMatmulAH cj x t y = .throw ∧ addMatmulHA cj y x t = .throw := by
  have eK : geti x.dims ((x.k : Int) - 1) = .ok K := by
    unfold geti
    rw [hx.k, hx.dims, List.length_append, List.length_singleton, if_neg (by omega), show ((X.length + 1 : Nat) - 1 : Int).toNat = X.length by omega]
    exact get_ok (by rw [List.getElem?_append_right le_rfl, Nat.sub_self]; rfl)
  have eL : Res.get y.dims 0 = .ok L := get_ok (by rw [hy.dims]; rfl)
  have d1 : ∀ a, idiv a K = .ok (a / K) := fun a => by unfold idiv; rw [if_neg (by omega)]
  have d2 : ∀ a, idiv a L = .ok (a / L) := fun a => by unfold idiv; rw [if_neg (by omega)]
  unfold addMatmul addMatmulAH addMatmulHA
  rw [eK, eL]
  by_cases c : (t.k : Int) = x.k + y.k - 2
  · simp only [cond_ok c, Res.ok_bind, d1, d2, cond_no (Ne.symm hd), throw_bind, and_self]
  · simp only [cond_no c, throw_bind, and_self]

example : ∃ x y : GT Int, new (fun i => (i : Int)) [2, 3] = .ok x ∧ new (fun _ => 1) [2, 2] = .ok y ∧ zip (fun _ => 9) (· + ·) x y = .throw ∧
    mul (fun _ => 9) x y = .throw ∧ mulTA (fun _ => 9) x y ≠ .throw ∧ addMatmul x x y = .throw :=
  ⟨_, _, rfl, rfl, rfl, rfl, (by intro h; cases h), rfl⟩

end GT

end Cnine
