import Verif.Lemmas.CtensorA
import Mathlib.Algebra.Order.Ring.Int

/-!
# C476–C483: complex tensors of the old backend
-/

namespace Cnine

variable {α : Type}

namespace CA

open RA (cells Free flat)

/-! ### C476: new tensors -/

/-- The two arrays of a new tensor are in one block, and nothing outside it changes. -/
theorem C476_raw {D : List Nat} (h : D ≠ []) (junk : Nat → α) (q : Nat) (m : Buf α) :
    ∃ x m', raw junk q D m = .ok (x, m') ∧ x.Fresh q D (fun ix => ⟨junk (q + position D ix), junk (q + cells D + position D ix)⟩) m m' ∧
      x.memsize = 2 * cells D ∧ x.nbu = -1 :=
  ⟨_, _, raw_ok h junk q m, ⟨rfl, rfl, raw_is h junk q m, fun _ hc => RA.raw_off _ _ hc⟩, rfl, rfl⟩

theorem C476_no_axes (junk : Nat → α) (q : Nat) (m : Buf α) : raw junk q [] m = .ub := rfl

/-- Real and imaginary parts from two lists of numbers. -/
theorem C476_filled {D : List Nat} (h : D ≠ []) (f g : Nat → α) (junk : Nat → α) (q : Nat) (m : Buf α) :
    ∃ x m', filled f g junk q D m = .ok (x, m') ∧ x.Fresh q D (fun ix => ⟨f (position D ix), g (position D ix)⟩) m m' := by
  have h0 := raw_is h junk q m
  obtain ⟨m1, a1, a2⟩ := fill_ok h0.re f
  obtain ⟨m2, b1, b2⟩ := fill_ok (h0.im_after a2) g
  refine ⟨mk0 q D, m2, ?_, fresh_of (two h0 a2 b2)⟩
  rw [filled, raw_ok h, Res.ok_bind]
  simp only
  rw [show RA.fillArr f (mk0 q D).re (mk0 q D).asize _ = _ from a1, Res.ok_bind, show RA.fillArr g (mk0 q D).im (mk0 q D).asize m1 = _ from b1, Res.ok_bind]

theorem C476_ones [Zero α] [One α] {D : List Nat} (h : D ≠ []) (junk : Nat → α) (q : Nat) (m : Buf α) :
    ∃ x m', ones junk q D m = .ok (x, m') ∧ x.Fresh q D (fun _ => ⟨1, 0⟩) m m' := C476_filled h _ _ junk q m

/-- Filling the whole block fills both parts. -/
theorem fill_block {D : List Nat} (h : D ≠ []) [Zero α] (junk : Nat → α) (q : Nat) (m : Buf α) :
    ∃ m', RA.fillArr (fun _ => (0 : α)) (mk0 q D).re (mk0 q D).memsize (allocRaw junk m q (2 * cells D)) = .ok m' ∧
      (∀ i, i < 2 * cells D → m' (q + i) = some 0) ∧ ∀ c, ¬ (q ≤ c ∧ c < q + 2 * cells D) → m' c = m c := by
  obtain ⟨m', h1, h2, h3⟩ := loop_cells (2 * cells D) (fun i => q + i) (fun _ => (0 : α)) (fun i m => m.write (q + i) 0) (allocRaw junk m q (2 * cells D))
    (fun i _ j _ e => by omega) (fun i hi => by rw [RA.raw_at _ _ ⟨by omega, by omega⟩]; rfl) (fun _ _ _ _ => rfl)
  refine ⟨m', h1, h2, fun c hc => ?_⟩
  rw [h3 c fun i hi e => hc ⟨by omega, by omega⟩, RA.raw_off _ _ hc]

theorem zero_fresh [Zero α] {D : List Nat} (h : D ≠ []) {q : Nat} {m m' : Buf α} (h2 : ∀ i, i < 2 * cells D → m' (q + i) = some 0)
    (h3 : ∀ c, ¬ (q ≤ c ∧ c < q + 2 * cells D) → m' c = m c) : (mk0 q D).Fresh q D (fun _ => (⟨0, 0⟩ : Cx α)) m m' :=
  ⟨rfl, rfl, mk0_is h q fun ix hi => by
    have := position_lt hi; have := (RA.cells_pos D).2
    exact ⟨h2 _ (by omega), by rw [Nat.add_assoc]; exact h2 _ (by omega)⟩, h3⟩

theorem C476_zero [Zero α] {D : List Nat} (h : D ≠ []) (junk : Nat → α) (q : Nat) (m : Buf α) :
    ∃ x m', zero junk q D m = .ok (x, m') ∧ x.Fresh q D (fun _ => ⟨0, 0⟩) m m' := by
  obtain ⟨m', h1, h2, h3⟩ := fill_block h junk q m
  refine ⟨mk0 q D, m', ?_, zero_fresh h h2 h3⟩
  rw [zero, raw_ok h, Res.ok_bind]
  simp only
  rw [h1, Res.ok_bind]

theorem C476_sequential [Zero α] [NatCast α] {D : List Nat} (h : D ≠ []) (junk : Nat → α) (q : Nat) (m : Buf α) :
    ∃ x m', sequential junk q D m = .ok (x, m') ∧ x.Fresh q D (fun ix => ⟨(position D ix : α), 0⟩) m m' := by
  obtain ⟨m1, h1, h2, h3⟩ := fill_block h junk q m
  have hz := zero_fresh h h2 h3
  obtain ⟨m2, b1, b2⟩ := fill_ok hz.2.2.1.re (fun i => (i : α))
  refine ⟨mk0 q D, m2, ?_, rfl, rfl, hz.2.2.1.of b2.1 (hz.2.2.1.im_after b2), fun c hc => ?_⟩
  · rw [sequential, zero, raw_ok h, Res.ok_bind]
    simp only
    rw [h1, Res.ok_bind, Res.ok_bind]
    simp only
    rw [show RA.fillArr _ (mk0 q D).re (mk0 q D).asize m1 = _ from b1, Res.ok_bind]
  · rw [b2.2 c fun k => hc (owns_mk0 (.inl k)), h3 c hc]

/-- A function of each number of another tensor. -/
theorem C476_mapped {x : CA} {D : List Nat} {G : List Nat → Cx α} {m : Buf α} (hx : x.Is D G m) (f : Cx α → Cx α) (junk : Nat → α) (q : Nat)
    (hf : Free m q (2 * cells D)) :
    ∃ y m', mapped f junk q x m = .ok (y, m') ∧ y.Fresh q D (fun ix => f (G ix)) m m' ∧ x.Is D G m' := by
  have h0 := raw_is hx.ne junk q m
  have hx0 := hx.old hf junk
  have ha := hx.apart_mk0 hf
  obtain ⟨m', h1, h2⟩ := all_run h0 (fun i => f (flat D G ⟨junk 0, junk 0⟩ i)) (fun i m => do
      let t ← getC (x.arr + i) (x.arrc + i) m
      setC ((mk0 q D).arr + i) ((mk0 q D).arrc + i) (f t) m) (by
    intro i hi m' hm
    have e : ∀ c, x.Owns c → m' c = allocRaw junk m q (2 * cells D) c := fun c hc => hm c fun j hj _ =>
      ⟨fun e => ha c (e ▸ (h0.owns hj).1) hc, fun e => ha c (e ▸ (h0.owns hj).2) hc⟩
    simp only [(hx0.keep e).get_at ⟨junk 0, junk 0⟩ hi, Res.ok_bind])
  have h3 := fresh_of (becomes_congr h2 fun ix hi => by rw [RA.flat_pos hi])
  refine ⟨mk0 q D, m', ?_, h3, hx0.stays h2 ha⟩
  rw [mapped, hx.dims, raw_ok hx.ne, Res.ok_bind]
  exact (congrArg (fun r : Res (Buf α) => r >>= fun m => Res.ok (mk0 q D, m)) h1).trans rfl

example : ∃ x m', raw (fun c => (c : Int)) 100 [3, 11] (fun _ => none) = .ok (x, m') ∧ x.arrc = 164 ∧ x.strides = [11, 1] ∧ m' 227 = some 227 ∧ m' 228 = none :=
  ⟨_, _, rfl, rfl, rfl, rfl, rfl⟩

example : ∃ x m', sequential (fun _ => (9 : Int)) 0 [2, 3] (fun _ => none) = .ok (x, m') ∧ x.get [1, 2] m' = .ok ⟨5, 0⟩ := ⟨_, _, rfl, rfl⟩

/-! ### C477: the identity -/

/-- A stack of two matrices of one entry: the second is not the identity. -/
theorem C477_stack_fails : ∃ x m', identity (fun _ => (9 : Int)) 0 [2, 1, 1] (fun _ => none) = .ok (x, m') ∧ x.get [0, 0, 0] m' = .ok ⟨1, 0⟩ ∧
    x.get [1, 0, 0] m' = .ok ⟨0, 0⟩ := ⟨_, _, rfl, rfl, rfl⟩

/-- No matrices of size 6: a one is written to the array of imaginary parts. -/
theorem C477_empty_fails : ∃ x m', identity (fun _ => (9 : Int)) 0 [0, 6, 6] (fun _ => none) = .ok (x, m') ∧ x.asize = 0 ∧ m' x.arrc = some 0 ∧ m' 35 = some 1 :=
  ⟨_, _, rfl, rfl, rfl, rfl⟩

/-- One matrix: ones on the diagonal, zeros elsewhere, no imaginary part. -/
theorem C477_matrix_partial [Zero α] [One α] (n : Nat) (junk : Nat → α) (q : Nat) (m : Buf α) :
    ∃ x m', identity junk q [n, n] m = .ok (x, m') ∧ x.Fresh q [n, n] (fun ix => ⟨if ix.getD 0 0 = ix.getD 1 0 then 1 else 0, 0⟩) m m' := by
  have hne : [n, n] ≠ [] := List.cons_ne_nil _ _
  obtain ⟨m1, h1, h2, h3⟩ := fill_block (α := α) hne junk q m
  have hz := zero_fresh hne h2 h3
  have hc := (RA.cells_pos [n, n]).2
  have hp : [n, n].prod = n * n := by simp
  have hle : ∀ i, i < n → i * (n + 1) < n * n := fun i hi => by
    have : i * (n + 1) = i * n + i := by ring
    rw [this]; exact RA.two_lt hi hi
  obtain ⟨m2, b1, b2, b3⟩ := loop_cells n (fun i => q + i * (n + 1)) (fun _ => (1 : α)) (fun i m => m.write (q + i * (n + 1)) 1) m1
    (fun i _ j _ e => by
      have : i * (n + 1) = j * (n + 1) := by omega
      exact Nat.eq_of_mul_eq_mul_right (by omega) this)
    (fun i hi => by have := hle i hi; rw [h2 _ (by omega)]; rfl) (fun _ _ _ _ => rfl)
  refine ⟨mk0 q [n, n], m2, ?_, rfl, rfl, mk0_is hne q fun ix hi => ?_, fun c hc' => ?_⟩
  · have hs : Res.get (mk0 q [n, n]).strides ([n, n].length - 2) = .ok n := by simp [mk0, Res.get, rmStrides, rmStridesFrom]
    have hd : decide (n = n) = true := decide_eq_true rfl
    rw [identity, raw_ok hne, Res.ok_bind]
    show (Res.assrt (decide (n = n)) >>= fun _ => RA.fillArr (fun _ => (0 : α)) (mk0 q [n, n]).re (mk0 q [n, n]).memsize (allocRaw junk m q (2 * cells [n, n])) >>= fun m =>
      Res.get (mk0 q [n, n]).strides ([n, n].length - 2) >>= fun s => loop n m (fun i m => m.write (q + i * (s + 1)) 1) >>= fun m => Res.ok (mk0 q [n, n], m)) = _
    rw [hd, Res.assrt_true, Res.ok_bind, h1, Res.ok_bind, hs, Res.ok_bind, b1, Res.ok_bind]
  · cases hi with
    | @cons i _ _ _ hi ht => cases ht with
    | @cons j _ _ _ hj ht => cases ht with
    | nil =>
    have e : position [n, n] [i, j] = i * n + j := by simp [position]
    have hlt := RA.two_lt hi hj
    rw [e]
    refine ⟨?_, ?_⟩
    · show m2 (q + (i * n + j)) = some (if i = j then 1 else 0)
      by_cases c : i = j
      · subst c
        rw [if_pos rfl, show i * n + i = i * (n + 1) by ring]
        exact b2 i hi
      · rw [if_neg c, b3 _ fun k hk e => c ?_]
        · exact h2 _ (by omega)
        · have e' : i * n + j = k * n + k := by
            have : k * (n + 1) = k * n + k := by ring
            omega
          obtain ⟨a, b⟩ := RA.two_inj hj hk e'
          omega
    · show m2 (q + cells [n, n] + (i * n + j)) = some 0
      rw [b3 _ fun k hk e => by have := hle k hk; omega, Nat.add_assoc]
      exact h2 _ (by omega)
  · rw [b3 c fun k hk e => hc' ⟨by omega, by have := hle k hk; omega⟩, h3 c hc']

example : ∃ x m', identity (fun _ => (9 : Int)) 4 [2, 2] (fun _ => none) = .ok (x, m') ∧ x.get [1, 1] m' = .ok ⟨1, 0⟩ ∧ x.get [0, 1] m' = .ok ⟨0, 0⟩ :=
  ⟨_, _, rfl, rfl, rfl⟩

/-! ### C478: views and shapes -/

theorem C478_view {x : CA} {D : List Nat} (G : List Nat → Cx α) (m : Buf α) : x.viewOf.isView = true ∧ (x.viewOf.Is D G m ↔ x.Is D G m) :=
  ⟨rfl, fun h => ⟨h.ne, h.dims, h.strides, h.asize, h.room, h.has, h.apart⟩, fun h => ⟨h.ne, h.dims, h.strides, h.asize, h.room, h.has, h.apart⟩⟩

/-- Reshaping keeps the numbers in order. -/
theorem C478_reshape {x : CA} {D E : List Nat} {G : List Nat → Cx α} {m : Buf α} (h : x.Is D G m) (hE : E ≠ []) (he : E.prod = D.prod) :
    ∃ y H, x.reshape E = .ok y ∧ y.Same x ∧ y.isView = x.isView ∧ y.Is E H m ∧
      ∀ ix jx, InRange ix D → InRange jx E → position D ix = position E jx → H jx = G ix := by
  have hr : x.reshape E = .ok { x with dims := E, strides := rmStrides E, asize := E.prod, cst := cells E, memsize := 2 * cells E } := by
    rw [reshape, decide_eq_true (by rw [asize_eq, he, h.asize]), Res.assrt_true, Res.ok_bind, RA.noalloc_ok hE, Res.ok_bind]
  refine ⟨_, fun jx => G (((allIndices D)[position E jx]?).getD []), hr, ⟨rfl, rfl⟩, rfl, ⟨hE, rfl, (compact_rm E).symm, rfl, (RA.cells_pos E).2, ?_, ?_⟩, ?_⟩
  · intro jx hj
    obtain ⟨ix, h1, h2⟩ := GT.surj (dims := D) (he ▸ position_lt hj)
    rw [← h2, GT.pick h1]
    exact h.has ix h1
  · intro i j hi hj
    exact h.apart i j (he ▸ hi) (he ▸ hj)
  · intro ix jx hi _ e
    simp only
    rw [← e, GT.pick hi]; rfl

theorem C478_reshape_refused {x : CA} {D E : List Nat} {G : List Nat → Cx α} {m : Buf α} (h : x.Is D G m) (he : E.prod ≠ D.prod) : x.reshape E = .throw := by
  rw [reshape, decide_eq_false (by rw [asize_eq, h.asize]; exact he)]; rfl

example : ∃ x m' y, sequential (fun _ => (9 : Int)) 7 [2, 3] (fun _ => none) = .ok (x, m') ∧ x.reshape [3, 2] = .ok y ∧ y.get [2, 1] m' = .ok ⟨5, 0⟩ :=
  ⟨_, _, _, rfl, rfl, rfl⟩

/-! ### C479: pointers after assignments -/

/-- Moving into a new object hands over both arrays. -/
theorem C479_move_partial (x : Ptrs) : x.move.1 = x ∧ x.move.2.arr = none ∧ x.move.2.arrc = none := ⟨rfl, rfl, rfl⟩

/-- After `r=std::move(x)` the array of imaginary parts is lost, whatever `r` (a view, or empty) and `x` were: every access is undefined. -/
theorem C479_move_assign_fails {r : Ptrs} (h : r.isView = true ∨ r.arr = none) (x : Ptrs) (t : Nat) (m : Buf α) :
    ∃ y z, r.moveAssign x = .ok (y, z) ∧ y.arr = x.arr ∧ y.arrc = none ∧ y.get t m = .ub := by
  refine ⟨⟨x.arr, none, x.isView⟩, ⟨none, none, x.isView⟩, ?_, rfl, rfl, ?_⟩
  · rcases h with h | h
    · simp [Ptrs.moveAssign, h]
    · simp [Ptrs.moveAssign, h, deleteOne]
  · unfold Ptrs.get
    cases x.arr <;> rfl

/-- Both assignments to a tensor that has an array of its own free it with `delete`, not `delete[]`. -/
theorem C479_delete_fails {r : Ptrs} {p : Nat} (hv : r.isView = false) (hp : r.arr = some p) (x : Ptrs) (q cst : Nat) :
    r.moveAssign x = .ub ∧ r.assign q cst = .ub := by
  simp [Ptrs.moveAssign, Ptrs.assign, hv, hp, deleteOne]

example : (⟨some 3, some 35, true⟩ : Ptrs).moveAssign ⟨some 100, some 132, false⟩ = .ok (⟨some 100, none, false⟩, ⟨none, none, false⟩) := rfl

/-! ### C480: access -/

theorem C480_get {x : CA} {D : List Nat} {G : List Nat → Cx α} {m : Buf α} (h : x.Is D G m) {ix : List Nat} (hi : InRange ix D) :
    x.get ix m = .ok (G ix) ∧ x.getInts ix m = .ok (G ix) := by
  have : x.get ix m = .ok (G ix) := by rw [get, h.re.offset hi, Res.ok_bind]; exact getC_ok (h.has ix hi).1 (h.has ix hi).2
  exact ⟨this, by rw [getInts, decide_eq_true (by rw [h.dims, hi.length]), Res.assrt_true, Res.ok_bind, this]⟩

theorem setC_is {x : CA} {D : List Nat} {G : List Nat → Cx α} {m : Buf α} (h : x.Is D G m) {ix : List Nat} (hi : InRange ix D) (v : Cx α) :
    ∃ m', setC (x.arr + position D ix) (x.arrc + position D ix) v m = .ok m' ∧ x.Becomes D (Function.update G ix v) m m' := by
  obtain ⟨m1, a1, a2⟩ := write_is h.re hi v.re
  obtain ⟨m2, b1, b2⟩ := write_is (h.im_after a2) hi v.im
  refine ⟨m2, ?_, becomes_congr (two h a2 b2) fun jx _ => ?_⟩
  · rw [setC, show m.write (x.arr + position D ix) v.re = _ from a1, Res.ok_bind]; exact b1
  · by_cases c : jx = ix
    · subst c; simp
    · simp [Function.update_of_ne c]

theorem C480_set {x : CA} {D : List Nat} {G : List Nat → Cx α} {m : Buf α} (h : x.Is D G m) {ix : List Nat} (hi : InRange ix D) (v : Cx α) :
    ∃ m', x.set ix v m = .ok m' ∧ x.setInts ix v m = .ok m' ∧ x.Becomes D (Function.update G ix v) m m' := by
  obtain ⟨m', h1, h2⟩ := setC_is h hi v
  have : x.set ix v m = .ok m' := by rw [set, h.re.offset hi, Res.ok_bind, h1]
  exact ⟨m', this, by rw [setInts, decide_eq_true (by rw [h.dims, hi.length]), Res.assrt_true, Res.ok_bind, this], h2⟩

theorem C480_inc [Add α] {x : CA} {D : List Nat} {G : List Nat → Cx α} {m : Buf α} (h : x.Is D G m) {ix : List Nat} (hi : InRange ix D) (v : Cx α) :
    ∃ m', x.inc ix v m = .ok m' ∧ x.incInts ix v m = .ok m' ∧ x.Becomes D (Function.update G ix (G ix + v)) m m' := by
  obtain ⟨m', h1, h2⟩ := setC_is h hi (G ix + v)
  have : x.inc ix v m = .ok m' := by
    rw [inc, h.re.offset hi, Res.ok_bind, incC_ok (h.has ix hi).1 (h.has ix hi).2 (h.apart _ _ (position_lt hi) (position_lt hi)), h1]
  exact ⟨m', this, by rw [incInts, decide_eq_true (by rw [h.dims, hi.length]), Res.assrt_true, Res.ok_bind, this], h2⟩

/-- The wrong number of indices is refused by the versions that take numbers. -/
theorem C480_wrong_number [Add α] {x : CA} {ix : List Nat} (h : x.dims.length ≠ ix.length) (v : Cx α) (m : Buf α) :
    x.getInts ix m = .throw ∧ x.setInts ix v m = .throw ∧ x.incInts ix v m = .throw := by
  simp [getInts, setInts, incInts, h, Res.assrt]

/-- Adding an element to a scalar, and a scalar to an element, of a tensor that is not a batch. -/
theorem C480_elements [Add α] {x : CA} {D : List Nat} {G : List Nat → Cx α} {m : Buf α} (h : x.Is D G m) (hb : x.nbu = -1) {ix : List Nat} (hi : InRange ix D)
    (r : Cx α) : x.addElementInto r ix m = .ok (r + G ix) ∧ ∃ m', x.addToElement ix r m = .ok m' ∧ x.Becomes D (Function.update G ix (G ix + r)) m m' := by
  obtain ⟨m', h1, _, h2⟩ := C480_inc h hi r
  exact ⟨by rw [addElementInto, if_pos hb, (C480_get h hi).1, Res.ok_bind], m', by rw [addToElement, if_pos hb, h1], h2⟩

example : ∃ x m', sequential (fun _ => (9 : Int)) 0 [2, 3] (fun _ => none) = .ok (x, m') ∧ x.nbu = -1 ∧ x.addElementInto ⟨10, 7⟩ [1, 1] m' = .ok ⟨14, 7⟩ :=
  ⟨_, _, rfl, rfl, rfl⟩

/-! ### C481: numbers added, part by part -/

/-- Two tensors combined part by part, whether apart or with the same arrays. -/
theorem czip (op op' : α → α → α) {r x : CA} {D : List Nat} {F G : List Nat → Cx α} {m : Buf α} (hr : r.Is D F m) (hx : x.Is D G m)
    (ha : r.Apart x ∨ r.Same x) :
    ∃ m', zipT op op' r x m = .ok m' ∧ r.Becomes D (fun ix => ⟨op (F ix).re (G ix).re, op' (F ix).im (G ix).im⟩) m m' := by
  obtain ⟨m1, a1, a2⟩ := zip_same op hr.re hx.re (meets_re ha)
  obtain ⟨m2, b1, b2⟩ := zip_same op' (hr.im_after a2) (im_operand hr hx a2 rfl ha) (meets_im ha)
  exact ⟨m2, by rw [zipT, a1, Res.ok_bind, b1], two hr a2 b2⟩

theorem C481_setZero [Zero α] {x : CA} {D : List Nat} {G : List Nat → Cx α} {m : Buf α} (h : x.Is D G m) :
    ∃ m', x.setZero m = .ok m' ∧ x.Becomes D (fun _ => ⟨0, 0⟩) m m' := by
  obtain ⟨m1, a1, a2⟩ := C370_setZero h.re
  obtain ⟨m2, b1, b2⟩ := C370_setZero (h.im_after a2)
  exact ⟨m2, by rw [setZero, a1, Res.ok_bind, b1], two h a2 b2⟩

theorem C481_add [Add α] {r x : CA} {D : List Nat} {F G : List Nat → Cx α} {m : Buf α} (hr : r.Is D F m) (hx : x.Is D G m) (ha : r.Apart x ∨ r.Same x) :
    ∃ m', r.add x m = .ok m' ∧ r.Becomes D (fun ix => F ix + G ix) m m' := czip _ _ hr hx ha

theorem C481_addScaled [Add α] [Mul α] {r x : CA} {D : List Nat} {F G : List Nat → Cx α} {m : Buf α} (hr : r.Is D F m) (hx : x.Is D G m)
    (ha : r.Apart x ∨ r.Same x) (c : α) :
    ∃ m', r.addScaled x c m = .ok m' ∧ r.Becomes D (fun ix => F ix + ⟨(G ix).re * c, (G ix).im * c⟩) m m' := czip _ _ hr hx ha

theorem C481_addDivide [Add α] [Mul α] [One α] [Div α] {r x : CA} {D : List Nat} {F G : List Nat → Cx α} {m : Buf α} (hr : r.Is D F m) (hx : x.Is D G m)
    (ha : r.Apart x ∨ r.Same x) (c : α) :
    ∃ m', r.addDivide x c m = .ok m' ∧ r.Becomes D (fun ix => F ix + ⟨(G ix).re * (1 / c), (G ix).im * (1 / c)⟩) m m' := czip _ _ hr hx ha

theorem C481_addConj [Ring α] {r x : CA} {D : List Nat} {F G : List Nat → Cx α} {m : Buf α} (hr : r.Is D F m) (hx : x.Is D G m) (ha : r.Apart x ∨ r.Same x) :
    ∃ m', r.addConj x m = .ok m' ∧ r.Becomes D (fun ix => F ix + ⟨(G ix).re, -(G ix).im⟩) m m' := by
  obtain ⟨m', h1, h2⟩ := czip (· + ·) (· - ·) hr hx ha
  exact ⟨m', h1, becomes_congr h2 fun ix _ => by simp only [Cx.add_def, sub_eq_add_neg]⟩

theorem C481_subtract [Sub α] {r x : CA} {D : List Nat} {F G : List Nat → Cx α} {m : Buf α} (hr : r.Is D F m) (hx : x.Is D G m) (ha : r.Apart x ∨ r.Same x) :
    ∃ m', r.subtract x m = .ok m' ∧ r.Becomes D (fun ix => ⟨(F ix).re - (G ix).re, (F ix).im - (G ix).im⟩) m m' := czip _ _ hr hx ha

/-- Other totals are refused. -/
theorem C481_refused (op op' : α → α → α) {r x : CA} {D E : List Nat} {F G : List Nat → Cx α} {m : Buf α} (hr : r.Is D F m) (hx : x.Is E G m)
    (he : D.prod ≠ E.prod) : zipT op op' r x m = .throw := by
  rw [zipT, (C370_zip_refused op hr.re hx.re he).1]; rfl

theorem czip3 (op op' : α → α → α → α) {r x y : CA} {D : List Nat} {F G H : List Nat → Cx α} {m : Buf α} (hr : r.Is D F m) (hx : x.Is D G m) (hy : y.Is D H m)
    (ha : r.Apart x ∨ r.Same x) (hb : r.Apart y ∨ r.Same y) :
    ∃ m', (RA.zip3T op r.re x.re y.re m >>= fun m => RA.zip3T op' r.im x.im y.im m) = .ok m' ∧
      r.Becomes D (fun ix => ⟨op (F ix).re (G ix).re (H ix).re, op' (F ix).im (G ix).im (H ix).im⟩) m m' := by
  obtain ⟨m1, a1, a2⟩ := zip3_same op hr.re hx.re hy.re (meets_re ha) (meets_re hb)
  obtain ⟨m2, b1, b2⟩ := zip3_same op' (hr.im_after a2) (im_operand hr hx a2 rfl ha) (im_operand hr hy a2 rfl hb) (meets_im ha) (meets_im hb)
  exact ⟨m2, by rw [a1, Res.ok_bind, b1], two hr a2 b2⟩

theorem C481_addPlus [Add α] {r x y : CA} {D : List Nat} {F G H : List Nat → Cx α} {m : Buf α} (hr : r.Is D F m) (hx : x.Is D G m) (hy : y.Is D H m)
    (ha : r.Apart x ∨ r.Same x) (hb : r.Apart y ∨ r.Same y) :
    ∃ m', r.addPlus x y m = .ok m' ∧ r.Becomes D (fun ix => F ix + (G ix + H ix)) m m' := czip3 _ _ hr hx hy ha hb

theorem C481_addMinus [Add α] [Sub α] {r x y : CA} {D : List Nat} {F G H : List Nat → Cx α} {m : Buf α} (hr : r.Is D F m) (hx : x.Is D G m) (hy : y.Is D H m)
    (ha : r.Apart x ∨ r.Same x) (hb : r.Apart y ∨ r.Same y) :
    ∃ m', r.addMinus x y m = .ok m' ∧ r.Becomes D (fun ix => F ix + ⟨(G ix).re - (H ix).re, (G ix).im - (H ix).im⟩) m m' := czip3 _ _ hr hx hy ha hb

/-- Multiplication of every number by `c`. -/
theorem C481_times [Ring α] {x : CA} {D : List Nat} {G : List Nat → Cx α} {m : Buf α} (h : x.Is D G m) (c : Cx α) :
    ∃ m', x.inplaceTimes c m = .ok m' ∧ x.Becomes D (fun ix => c * G ix) m m' := by
  obtain ⟨m', h1, h2⟩ := all_run h (fun i => c * flat D G 0 i) (fun i m => do
      let t ← getC (x.arr + i) (x.arrc + i) m
      setC (x.arr + i) (x.arrc + i) (c * t) m) (by
    intro i hi m' hm
    have e := h.at 0 hi
    rw [getC_ok (a := flat D G 0 i) (by rw [← e.1]; exact hm _ fun j hj hne => ⟨by omega, h.apart _ _ hi hj⟩)
      (by rw [← e.2]; exact hm _ fun j hj hne => ⟨(h.apart _ _ hj hi).symm, by omega⟩), Res.ok_bind])
  exact ⟨m', by rw [inplaceTimes, h.asize, h1], becomes_congr h2 fun ix hi => by rw [RA.flat_pos hi]⟩

/-- Adding `c` times a tensor that is apart. -/
theorem C481_addC [Ring α] {r x : CA} {D : List Nat} {F G : List Nat → Cx α} {m : Buf α} (hr : r.Is D F m) (hx : x.Is D G m) (ha : r.Apart x) (c : Cx α) :
    ∃ m', r.addC x c m = .ok m' ∧
      r.Becomes D (fun ix => F ix + ⟨(G ix).re * c.re - (G ix).im * c.im, (G ix).im * c.re + (G ix).re * c.im⟩) m m' := by
  obtain ⟨p1, p2, p3, p4⟩ := ha.parts
  obtain ⟨m1, a1, a2⟩ := zip3_same (fun a b d => a + (b * c.re - d * c.im)) hr.re hx.re hx.im (.inl p1) (.inl p2)
  have k : ∀ d, x.Owns d → m1 d = m d := fun d hd => a2.2 d fun k => ha d (.inl k) hd
  obtain ⟨m2, b1, b2⟩ := zip3_same (fun a b d => a + (b * c.re + d * c.im)) (hr.im_after a2) (hx.keep k).im (hx.keep k).re (.inl p4) (.inl p3)
  refine ⟨m2, ?_, two hr a2 b2⟩
  rw [addC, addParts, decide_eq_true (by rw [hr.asize, hx.asize]), Res.assrt_true, Res.ok_bind, a1, Res.ok_bind, b1]

/-- `ReLU` of each part. -/
theorem C481_addReLU [Ring α] [LinearOrder α] (alpha : α) {r x : CA} {D : List Nat} {F G : List Nat → Cx α} {m : Buf α} (hr : r.Is D F m) (hx : x.Is D G m)
    (ha : r.Apart x ∨ r.Same x) : ∃ m', addReLU (fun b => decide (0 < b)) (fun b => decide (b < 0)) alpha r x m = .ok m' ∧
      r.Becomes D (fun ix => F ix + ⟨if 0 < (G ix).re then (G ix).re else alpha * (G ix).re, if 0 < (G ix).im then (G ix).im else alpha * (G ix).im⟩) m m' := by
  obtain ⟨m1, a1, a2⟩ := C370_addReLU alpha hr.re hx.re (meets_re ha)
  obtain ⟨m2, b1, b2⟩ := C370_addReLU alpha (hr.im_after a2) (im_operand hr hx a2 rfl ha) (meets_im ha)
  exact ⟨m2, by rw [addReLU, a1, Res.ok_bind, b1], two hr a2 b2⟩

/-- The derivative of `ReLU` with a slope. -/
theorem C481_addReLUback [Ring α] [LinearOrder α] (alpha : α) {r g x : CA} {D : List Nat} {F G H : List Nat → Cx α} {m : Buf α} (hr : r.Is D F m)
    (hg : g.Is D G m) (hx : x.Is D H m) (ha : r.Apart g ∨ r.Same g) (hb : r.Apart x ∨ r.Same x) :
    ∃ m', addReLUbackAlpha (fun b => decide (0 < b)) alpha r g x m = .ok m' ∧
      r.Becomes D (fun ix => F ix + ⟨if 0 < (H ix).re then (G ix).re else alpha * (G ix).re, if 0 < (H ix).im then (G ix).im else alpha * (G ix).im⟩) m m' := by
  obtain ⟨m1, a1, a2⟩ := C370_addReLUback alpha hr.re hg.re hx.re (meets_re ha) (meets_re hb)
  obtain ⟨m2, b1, b2⟩ := C370_addReLUback alpha (hr.im_after a2) (im_operand hr hg a2 rfl ha) (im_operand hr hx a2 rfl hb) (meets_im ha) (meets_im hb)
  exact ⟨m2, by rw [addReLUbackAlpha, a1, Res.ok_bind, b1], two hr a2 b2⟩

/-- A tensor of three numbers at 0, and one at 64. -/
def exR : CA := ⟨0, 32, [3], [1], 3, 64, 32, -1, false⟩
def exX : CA := ⟨64, 96, [3], [1], 3, 64, 32, -1, false⟩
def exM : Buf Int := fun c => if c < 128 then some (c : Int) else none

theorem exR_is : exR.Is [3] (fun ix => ⟨(ix.getD 0 0 : Int), 32 + (ix.getD 0 0 : Int)⟩) exM := by
  refine ⟨by simp, rfl, rfl, rfl, by decide, fun ix hi => ?_, fun i j hi hj => by simp at hi hj; simp [exR]; omega⟩
  cases hi with | @cons i _ _ _ hi ht => cases ht with | nil => simp [exR, exM, position]; omega

theorem exX_is : exX.Is [3] (fun ix => ⟨64 + (ix.getD 0 0 : Int), 96 + (ix.getD 0 0 : Int)⟩) exM := by
  refine ⟨by simp, rfl, rfl, rfl, by decide, fun ix hi => ?_, fun i j hi hj => by simp at hi hj; simp [exX]; omega⟩
  cases hi with | @cons i _ _ _ hi ht => cases ht with | nil => simp [exX, exM, position]; omega

theorem ex_apart : exR.Apart exX := fun c h1 h2 => by simp [Owns, exR, exX] at h1 h2; omega

/-- The hypotheses of the theorems above hold of these. -/
example : ∃ m', exR.addC exX ⟨2, 1⟩ exM = .ok m' ∧ exR.get [1] m' = .ok ⟨1 + (65 * 2 - 97 * 1), 33 + (97 * 2 + 65 * 1)⟩ := by
  obtain ⟨m', h1, h2⟩ := C481_addC exR_is exX_is ex_apart ⟨2, 1⟩
  exact ⟨m', h1, (C480_get h2.1 (.cons (by decide) .nil)).1⟩

/-! ### C482: what fails -/

/-- The one number `1+0i`, at 0. -/
def exOne : CA := ⟨0, 32, [1], [1], 1, 64, 32, -1, false⟩

/-- `x.add(x,c)`: the imaginary parts are computed from the new real parts.  With `x=1` and `c=1+i` the result should be `2+i`. -/
theorem C482_add_self_fails : ∃ m', exOne.addC exOne ⟨1, 1⟩ (fun c => if c = 0 then some (1 : Int) else if c = 32 then some 0 else none) = .ok m' ∧
    exOne.get [0] m' = .ok ⟨2, 2⟩ := ⟨_, rfl, rfl⟩

/-- `add_conj(x,c)` adds `x` times the conjugate of `c`, not the conjugate of `x` times `c`: with `x=i` and `c=1` it adds `i`. -/
theorem C482_add_conj_fails : ∃ m', (⟨64, 96, [1], [1], 1, 64, 32, -1, false⟩ : CA).addConjC exOne ⟨1, 0⟩
      (fun c => if c = 32 then some (1 : Int) else if c = 0 ∨ c = 64 ∨ c = 96 then some 0 else none) = .ok m' ∧
    (⟨64, 96, [1], [1], 1, 64, 32, -1, false⟩ : CA).get [0] m' = .ok ⟨0, 1⟩ := ⟨_, rfl, rfl⟩

/-- What `add_conj(x,c)` does. -/
theorem C482_add_conj_partial [Ring α] {r x : CA} {D : List Nat} {F G : List Nat → Cx α} {m : Buf α} (hr : r.Is D F m) (hx : x.Is D G m) (ha : r.Apart x) (c : Cx α) :
    ∃ m', r.addConjC x c m = .ok m' ∧
      r.Becomes D (fun ix => F ix + ⟨(G ix).re * c.re - (G ix).im * (-c.im), (G ix).im * c.re + (G ix).re * (-c.im)⟩) m m' :=
  C481_addC hr hx ha ⟨c.re, -c.im⟩

/-- `add_ReLU_back(g,x)` adds the real part of `g` to the imaginary part: here `g=5` and `x=1+i`. -/
theorem C482_relu_back_fails : ∃ m', addReLUback (fun b : Int => decide (0 < b)) ⟨128, 160, [1], [1], 1, 64, 32, -1, false⟩ exOne ⟨64, 96, [1], [1], 1, 64, 32, -1, false⟩
      (fun c => if c = 0 then some 5 else if c = 64 ∨ c = 96 then some 1 else if c = 32 ∨ c = 128 ∨ c = 160 then some 0 else none) = .ok m' ∧
    (⟨128, 160, [1], [1], 1, 64, 32, -1, false⟩ : CA).get [0] m' = .ok ⟨5, 5⟩ := ⟨_, rfl, rfl⟩

/-- `norm2()` of the number `i` is -1. -/
theorem C482_norm2_fails : norm2 exOne (fun c => if c = 0 then some (0 : Int) else if c = 32 then some 1 else none) = .ok (-1) := rfl

/-- What `norm2()` computes: the squares of the imaginary parts are subtracted. -/
theorem C482_norm2_partial [Ring α] {x : CA} {D : List Nat} {G : List Nat → Cx α} {m : Buf α} (h : x.Is D G m) :
    norm2 x m = .ok ((allIndices D).map fun ix => (G ix).re * (G ix).re - (G ix).im * (G ix).im).sum := by
  rw [norm2, h.asize, RA.sum_run D.prod m (fun i => (flat D G 0 i).re * (flat D G 0 i).re - (flat D G 0 i).im * (flat D G 0 i).im)]
  · rw [RA.sum_flat D G 0 _ (fun ix => (G ix).re * (G ix).re - (G ix).im * (G ix).im) fun ix hi => by rw [RA.flat_pos hi]]
  · intro i hi t
    have := h.at 0 hi
    rw [read_ok this.1, Res.ok_bind, read_ok this.2, Res.ok_bind]

/-! ### C483: inner products -/

/-- The inner product with the conjugate of the second tensor. -/
theorem C483_inp [Ring α] {r x : CA} {D : List Nat} {F G : List Nat → Cx α} {m : Buf α} (hr : r.Is D F m) (hx : x.Is D G m) :
    inp r x m = .ok ((allIndices D).map fun ix =>
      (⟨(F ix).re * (G ix).re + (F ix).im * (G ix).im, (F ix).im * (G ix).re - (F ix).re * (G ix).im⟩ : Cx α)).sum := by
  rw [inp, decide_eq_true (by rw [hr.asize, hx.asize]), Res.assrt_true, Res.ok_bind, hr.asize]
  have key := RA.sum_run D.prod (α := Cx α) (fun _ => none)
    (fun i => (⟨(flat D F 0 i).re * (flat D G 0 i).re + (flat D F 0 i).im * (flat D G 0 i).im,
      (flat D F 0 i).im * (flat D G 0 i).re - (flat D F 0 i).re * (flat D G 0 i).im⟩ : Cx α))
    (fun i t => do
      let a ← getC (r.arr + i) (r.arrc + i) m
      let b ← getC (x.arr + i) (x.arrc + i) m
      .ok ⟨t.re + (a.re * b.re + a.im * b.im), t.im + (a.im * b.re - a.re * b.im)⟩)
    (fun i hi t => by rw [hr.get_at 0 hi, Res.ok_bind, hx.get_at 0 hi, Res.ok_bind, Cx.add_def])
  rw [RA.sum_flat D F 0 _ (fun ix => (⟨(F ix).re * (G ix).re + (F ix).im * (G ix).im, (F ix).im * (G ix).re - (F ix).re * (G ix).im⟩ : Cx α))
    fun ix hi => by rw [RA.flat_pos hi, RA.flat_pos hi]] at key
  split
  · next e => rw [e] at key; exact key
  · exact key

theorem C483_refused [Ring α] {r x : CA} {D E : List Nat} {F G : List Nat → Cx α} {m : Buf α} (hr : r.Is D F m) (hx : x.Is E G m) (he : D.prod ≠ E.prod) :
    inp r x m = .throw := by
  rw [inp, decide_eq_false (by rw [hr.asize, hx.asize]; exact he)]; rfl

/-- Added to a scalar. -/
theorem C483_into [Ring α] {r x : CA} {D : List Nat} {F G : List Nat → Cx α} {m : Buf α} (hr : r.Is D F m) (hx : x.Is D G m) (hb : r.nbu = -1) (s : Cx α) :
    addInpInto r s x m = .ok (s + ((allIndices D).map fun ix =>
      (⟨(F ix).re * (G ix).re + (F ix).im * (G ix).im, (F ix).im * (G ix).re - (F ix).re * (G ix).im⟩ : Cx α)).sum) := by
  rw [addInpInto, if_pos hb, C483_inp hr hx, Res.ok_bind]

example : inp exR exX exM = .ok ⟨(32*96+33*97+34*98) + (0*64+1*65+2*66), (32*64+33*65+34*66) - (0*96+1*97+2*98)⟩ := rfl

end CA

end Cnine
