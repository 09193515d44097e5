import Verif.Lemmas.CtensorB
import Mathlib.Algebra.Order.Ring.Int

/-!
# C586–C590: complex tensors of backend B: new tensors, copies, conversions, access, views
-/

namespace Cnine

variable {α : Type}

namespace CB

open RA (Free flat)

/-! ### C586: new tensors -/

theorem C586_raw_partial {D : List Nat} (h : D ≠ []) (junk : Nat → α) (q : Nat) (m : Buf α) :
    ∃ x m', raw junk q D m = .ok (x, m') ∧ x.Fresh q D (fun ix => ⟨junk (q + 2 * position D ix), junk (q + (2 * position D ix + 1))⟩) m m' :=
  ⟨_, _, raw_ok h junk q m, rfl, rfl, raw_is h junk q _ m, fun _ hc => RA.raw_off _ _ hc⟩

theorem C586_no_axes_partial (junk : Nat → α) (q : Nat) (m : Buf α) : raw junk q [] m = .throw := rfl

/-- The array filled from a list of numbers, such as random numbers. -/
theorem C586_filled_partial {D : List Nat} (h : D ≠ []) (f : Nat → α) (junk : Nat → α) (q : Nat) (m : Buf α) :
    ∃ x m', filled f junk q D m = .ok (x, m') ∧ x.Fresh q D (fun ix => ⟨f (2 * position D ix), f (2 * position D ix + 1)⟩) m m' := by
  obtain ⟨m', h1, h2⟩ := mem_run (raw_is h junk q false m) f (fun i m => m.write (q + i) (f i)) fun _ _ _ _ => rfl
  refine ⟨_, m', ?_, fresh_of h2⟩
  rw [filled, raw_ok h, Res.ok_bind]
  exact (congrArg (fun r : Res (Buf α) => r >>= fun m => Res.ok (mk0 q D false, m)) h1).trans rfl

theorem zero_ok [Zero α] {D : List Nat} (h : D ≠ []) (junk : Nat → α) (q : Nat) (m : Buf α) :
    ∃ m', zero junk q D m = .ok (mk0 q D false, m') ∧ (mk0 q D false).Becomes D (fun _ => (⟨0, 0⟩ : Cx α)) (allocRaw junk m q (2 * D.prod)) m' := by
  obtain ⟨m', h1, h2⟩ := mem_run (raw_is h junk q false m) (fun _ => 0) (fun i m => m.write (q + i) 0) fun _ _ _ _ => rfl
  refine ⟨m', ?_, h2⟩
  rw [zero, filled, raw_ok h, Res.ok_bind]
  exact (congrArg (fun r : Res (Buf α) => r >>= fun m => Res.ok (mk0 q D false, m)) h1).trans rfl

theorem C586_zero_partial [Zero α] {D : List Nat} (h : D ≠ []) (junk : Nat → α) (q : Nat) (m : Buf α) :
    ∃ x m', zero junk q D m = .ok (x, m') ∧ x.Fresh q D (fun _ => ⟨0, 0⟩) m m' := by
  obtain ⟨m', h1, h2⟩ := zero_ok h junk q m
  exact ⟨_, m', h1, fresh_of h2⟩

theorem C586_sequential_partial [Zero α] [NatCast α] {D : List Nat} (h : D ≠ []) (junk : Nat → α) (q : Nat) (m : Buf α) :
    ∃ x m', sequential junk q D m = .ok (x, m') ∧ x.Fresh q D (fun ix => ⟨(position D ix : α), 0⟩) m m' := by
  obtain ⟨m1, h1, h2⟩ := zero_ok h junk q m
  obtain ⟨m2, g1, g2⟩ := part_run h2.1 (o := 0) (by omega) (fun i => (i : α)) (fun i m => m.write (q + i * 2) (i : α)) fun i _ m' _ => by
    rw [show (mk0 q D false).arr + (2 * i + 0) = q + i * 2 by show q + _ = _; omega]
  have hs : Res.get (rmStridesFrom 2 D) (D.length - 1) = .ok 2 := by
    have hl : 0 < D.length := List.length_pos_of_ne_nil h
    rw [GT.strides_from, Res.get, List.getElem?_map, GT.strides_get (by omega)]
    simp [show D.length - 1 + 1 = D.length by omega]
  refine ⟨_, m2, ?_, fresh_of ⟨g2.1.mk' fun ix hi => ?_, fun c hc => by rw [g2.2 c hc, h2.2 c hc]⟩⟩
  · rw [sequential, h1, Res.ok_bind]
    show (Res.get (rmStridesFrom 2 D) (D.length - 1) >>= fun s => loop D.prod m1 (fun i m => m.write (q + i * s) (i : α)) >>= fun m => Res.ok (mk0 q D false, m)) = _
    rw [hs, Res.ok_bind, g1, Res.ok_bind]
  · have := g2.1.has ix hi
    rw [if_pos rfl] at this
    exact this

/-- A square matrix: ones on the diagonal, zeros elsewhere. -/
theorem C586_identity_partial [Zero α] [One α] (n : Nat) (junk : Nat → α) (q : Nat) (m : Buf α) :
    ∃ x m', identity junk q [n, n] m = .ok (x, m') ∧ x.Fresh q [n, n] (fun ix => ⟨if ix.getD 0 0 = ix.getD 1 0 then 1 else 0, 0⟩) m m' := by
  have hne : [n, n] ≠ [] := List.cons_ne_nil _ _
  obtain ⟨m1, h1, h2⟩ := zero_ok hne junk q m
  have hp : [n, n].prod = n * n := by simp
  have hle : ∀ i, i < n → i * (n + 1) < n * n := fun i hi => by
    have : i * (n + 1) = i * n + i := by ring
    rw [this]; exact RA.two_lt hi hi
  have hst : rmStridesFrom 2 [n, n] = [n * 2, 2] := by simp [rmStridesFrom, Nat.mul_comm]
  obtain ⟨m2, b1, b2, b3⟩ := loop_cells n (fun i => q + 2 * (i * (n + 1))) (fun _ => (1 : α)) (fun i m => m.write (q + (n * 2 + 2) * i) 1) m1
    (fun i _ j _ e => Nat.eq_of_mul_eq_mul_right (show 0 < n + 1 by omega) (by omega))
    (fun i hi => h2.1.some_at (by have := hle i hi; rw [hp]; omega))
    (fun i _ m' _ => by rw [show (n * 2 + 2) * i = 2 * (i * (n + 1)) by ring])
  refine ⟨_, m2, ?_, fresh_of (junk := junk) ⟨h2.1.mk' fun ix hi => ?_, fun c hc => ?_⟩⟩
  · have hd : decide (n = n) = true := decide_eq_true rfl
    rw [identity, h1, Res.ok_bind]
    show (Res.assrt (decide (n = n)) >>= fun _ => Res.get (rmStridesFrom 2 [n, n]) 0 >>= fun s0 => Res.get (rmStridesFrom 2 [n, n]) 1 >>= fun s1 =>
      loop n m1 (fun i m => m.write (q + (s0 + s1) * i) 1) >>= fun m => Res.ok (mk0 q [n, n] false, m)) = _
    rw [hd, Res.assrt_true, Res.ok_bind, hst]
    show (loop n m1 (fun i m => m.write (q + (n * 2 + 2) * i) 1) >>= fun m => Res.ok (mk0 q [n, n] false, m)) = _
    rw [b1, Res.ok_bind]
  · have k := h2.1.has ix hi
    obtain ⟨i, j, rfl, hI, hj⟩ : ∃ i j, ix = [i, j] ∧ i < n ∧ j < n := by
      match ix, hi with
      | [i, j], .cons hi (.cons hj .nil) => exact ⟨i, j, rfl, hi, hj⟩
    have e : position [n, n] [i, j] = i * n + j := by simp [position]
    rw [e] at k ⊢
    refine ⟨?_, ?_⟩
    · show m2 (q + 2 * (i * n + j)) = some (if i = j then 1 else 0)
      split
      · next h => subst h; rw [← b2 i hI]; rw [show i * (n + 1) = i * n + i by ring]
      · next h =>
        rw [b3 _ fun a ha e => h ?_]
        · exact k.1
        · have : i * n + j = a * n + a := by
            have : a * (n + 1) = a * n + a := by ring
            omega
          obtain ⟨e1, e2⟩ := RA.two_inj hj ha this
          omega
    · rw [b3 _ fun a ha e => by
        have e' : q + (2 * (i * n + j) + 1) = q + 2 * (a * (n + 1)) := e
        omega]
      exact k.2
  · rw [b3 c fun i hi e => hc (e ▸ h2.1.owns (by have := hle i hi; rw [hp]; omega)), h2.2 c hc]

theorem C586_identity_throws_partial [Zero α] [One α] {a b : Nat} (h : a ≠ b) (junk : Nat → α) (q : Nat) (m : Buf α) : identity junk q [a, b] m = .throw := by
  obtain ⟨m1, h1, h2⟩ := zero_ok (List.cons_ne_nil a [b]) junk q m
  have hd : decide (a = b) = false := decide_eq_false h
  rw [identity, h1, Res.ok_bind]
  show (Res.assrt (decide (a = b)) >>= fun _ => _) = _
  rw [hd]; rfl

/-- Every entry of a tensor of ones has the imaginary part 1 too, whatever its sizes. -/
theorem C586_ones_fails [One α] {D : List Nat} (h : D ≠ []) (junk : Nat → α) (q : Nat) (m : Buf α) :
    ∃ x m', ones junk q D m = .ok (x, m') ∧ x.Fresh q D (fun _ => ⟨1, 1⟩) m m' := C586_filled_partial h _ junk q m

/-- A tensor of ones, one entry: it is 1+i. -/
theorem C586_ones_entry_fails : ∃ x m', ones (fun _ => (9 : Int)) 0 [1] (fun _ => none) = .ok (x, m') ∧ x.get [0] m' = .ok ⟨1, 1⟩ ∧ (⟨1, 1⟩ : Cx Int) ≠ ⟨1, 0⟩ :=
  ⟨_, _, rfl, rfl, by decide⟩

example : ∃ x m', sequential (fun _ => (9 : Int)) 100 [2, 3] (fun _ => none) = .ok (x, m') ∧ x.strides = [6, 2] ∧ x.get [1, 2] m' = .ok ⟨5, 0⟩ ∧ m' 111 = some 0 ∧ m' 112 = none :=
  ⟨_, _, rfl, rfl, rfl, rfl, rfl⟩

example : ∃ x m', identity (fun _ => (9 : Int)) 0 [3, 3] (fun _ => none) = .ok (x, m') ∧ x.get [2, 2] m' = .ok ⟨1, 0⟩ ∧ x.get [2, 1] m' = .ok ⟨0, 0⟩ := ⟨_, _, rfl, rfl, rfl⟩

/-! ### C587: copies and assignments -/

theorem C587_copy_partial {x : CB} {D : List Nat} {G : List Nat → Cx α} {m : Buf α} (h : x.Is D G m) (junk : Nat → α) (q : Nat) (hf : Free m q (2 * D.prod)) :
    ∃ y m', copy junk q x m = .ok (y, m') ∧ y.Fresh q D G m m' ∧ x.Is D G m' ∧ y.Apart x := by
  have hx0 := h.old hf junk
  have hy : ∀ m' : Buf α, (∀ ix, InRange ix D → m' (q + 2 * position D ix) = some (G ix).re ∧ m' (q + (2 * position D ix + 1)) = some (G ix).im) →
      ({ x with arr := q, isView := false } : CB).Is D G m' := fun m' hm => ⟨h.ne, h.dims, h.strides, h.asize, h.memsize, h.coffs, hm⟩
  by_cases hD : D.prod = 0
  · refine ⟨_, allocRaw junk m q 0, ?_, ⟨rfl, rfl, hy _ fun ix hi => by have := position_lt hi; omega, fun c _ => RA.raw_off _ _ (by omega)⟩, ?_, ?_⟩
    · rw [copy, h.memsize, hD, stdCopy, if_neg (by omega)]; rfl
    · rw [hD] at hx0; exact hx0
    · intro c hc _
      have := hc.2; have := hc.1
      rw [show ({ x with arr := q, isView := false } : CB).asize = 0 from h.asize.trans hD] at *
      omega
  obtain ⟨ix0, _, _⟩ := GT.surj (dims := D) (i := 0) (by omega)
  have hap : ∀ c, q ≤ c → c < q + 2 * D.prod → ¬ x.Owns c := fun c h1 h2 ho => h.not_free hf ho ⟨h1, h2⟩
  obtain ⟨m', h1, h2, h3⟩ := stdCopy_ok (allocRaw junk m q (2 * D.prod)) x.arr (2 * D.prod) q (part D G (G ix0))
    (fun i hi => by rw [RA.raw_at _ _ ⟨by omega, by omega⟩]; rfl) (fun i hi => hx0.part_at _ hi)
    (fun i hi j hj e => hap (q + i) (by omega) (by omega) (e ▸ h.owns hj))
  refine ⟨_, m', ?_, ⟨rfl, rfl, hy _ fun ix hi => ?_, fun c hc => ?_⟩, ?_, ?_⟩
  · rw [copy, h.memsize, h1, Res.ok_bind]
  · have := position_lt hi
    rw [h2 _ (by omega), h2 _ (by omega), part_re, part_im, RA.flat_pos hi]
    exact ⟨rfl, rfl⟩
  · rw [h3 c fun i hi e => hc ⟨by omega, by omega⟩, RA.raw_off _ _ hc]
  · exact hx0.keep fun c hc => h3 c fun i hi e => hap c (by omega) (by omega) hc
  · intro c hc ho
    have := hc.2; have := hc.1
    rw [show ({ x with arr := q, isView := false } : CB).asize = D.prod from h.asize] at *
    exact hap c (by assumption) (by assumption) ho

/-- Assigning to an object without an array, or to a view, makes a copy; a view is then no view any more. -/
theorem C587_assign_partial {r : Option CB} (hr : ∀ z, r = some z → z.isView = true) {x : CB} {D : List Nat} {G : List Nat → Cx α} {m : Buf α} (h : x.Is D G m)
    (junk : Nat → α) (q : Nat) (hf : Free m q (2 * D.prod)) : ∃ y m', assign junk q r x m = .ok (y, m') ∧ y.Fresh q D G m m' ∧ x.Is D G m' := by
  obtain ⟨y, m', h1, h2, h3, _⟩ := C587_copy_partial h junk q hf
  refine ⟨y, m', ?_, h2, h3⟩
  cases r with
  | none => exact h1
  | some z => rw [assign, hr z rfl]; exact h1

/-- Assigning to any tensor that owns its array is undefined. -/
theorem C587_assign_fails {r : CB} (hr : r.isView = false) (x : CB) (junk : Nat → α) (q : Nat) (m : Buf α) : assign junk q (some r) x m = .ub := by
  rw [assign, hr]; rfl

theorem C587_move_fails {r : CB} (hr : r.isView = false) (x : CB) : moveAssign (some r) x = .ub := by
  rw [moveAssign, hr]; rfl

/-- Two tensors of one entry, and the assignment of the second to the first. -/
theorem C587_witness_fails : ∃ x m1 y m2, zero (fun _ => (9 : Int)) 0 [1] (fun _ => none) = .ok (x, m1) ∧ zero (fun _ => 9) 10 [1] m1 = .ok (y, m2) ∧
    assign (fun _ => 9) 20 (some x) y m2 = .ub := ⟨_, _, _, _, rfl, rfl, rfl⟩

example : ∃ x m1 y m2, sequential (fun _ => (9 : Int)) 0 [2, 2] (fun _ => none) = .ok (x, m1) ∧ copy (fun _ => 9) 10 x m1 = .ok (y, m2) ∧ y.get [1, 0] m2 = .ok ⟨2, 0⟩ :=
  ⟨_, _, _, _, rfl, rfl, rfl⟩

/-! ### C588: real and imaginary parts -/

/-- A complex tensor from its real and imaginary parts. -/
theorem C588_ofParts_partial {a b : RA} {D : List Nat} {f g : List Nat → α} {m : Buf α} (ha : a.Is D f m) (hb : b.Is D g m) (junk : Nat → α) (q : Nat)
    (hf : Free m q (2 * D.prod)) :
    ∃ x m', ofParts junk q a b m = .ok (x, m') ∧ x.Fresh q D (fun ix => ⟨f ix, g ix⟩) m m' ∧ a.Is D f m' ∧ b.Is D g m' := by
  have h0 := raw_is ha.ne junk q false m
  have old : ∀ {z : RA} {e : List Nat → α}, z.Is D e m → ∀ c, z.Owns c → ¬ (q ≤ c ∧ c < q + 2 * D.prod) := fun hz c hc => hz.not_free hf hc
  have ha0 : a.Is D f (allocRaw junk m q (2 * D.prod)) := ha.keep fun c hc => RA.raw_off _ _ (old ha c hc)
  have hb0 : b.Is D g (allocRaw junk m q (2 * D.prod)) := hb.keep fun c hc => RA.raw_off _ _ (old hb c hc)
  obtain ⟨m1, g1, g2⟩ := part_run h0 (o := 0) (by omega) (fun i => flat D f (f []) i) (fun i m => copyCell m (q + 2 * i) (a.arr + i)) (by
    intro i hi m' hm
    have e : m' (a.arr + i) = some (flat D f (f []) i) := by
      rw [hm _ fun j hj _ e => old ha _ (ha.owns hi) ⟨by rw [e]; show q ≤ q + _; omega, by rw [e]; show q + _ < _; omega⟩, ha0.at _ hi]
    rw [copyCell, read_ok e, Res.ok_bind]
    rfl)
  have hb1 : b.Is D g m1 := hb0.keep fun c hc => g2.2 c (old hb c hc)
  obtain ⟨m2, k1, k2⟩ := part_run g2.1 (o := 1) (by omega) (fun i => flat D g (g []) i) (fun i m => copyCell m (q + (2 * i + 1)) (b.arr + i)) (by
    intro i hi m' hm
    have e : m' (b.arr + i) = some (flat D g (g []) i) := by
      rw [hm _ fun j hj _ e => old hb _ (hb.owns hi) ⟨by rw [e]; show q ≤ q + _; omega, by rw [e]; show q + _ < _; omega⟩, hb1.at _ hi]
    rw [copyCell, read_ok e, Res.ok_bind]
    rfl)
  have hout : ∀ c, ¬ (mk0 q D false).Owns c → m2 c = allocRaw junk m q (2 * D.prod) c := fun c hc => by rw [k2.2 c hc, g2.2 c hc]
  refine ⟨_, m2, ?_, fresh_of ⟨k2.1.mk' fun ix hi => ?_, hout⟩, ha0.keep fun c hc => hout c (old ha c hc), hb0.keep fun c hc => hout c (old hb c hc)⟩
  · rw [ofParts, ha.dims, raw_ok ha.ne, Res.ok_bind]
    show (loop D.prod _ (fun i m => copyCell m (q + 2 * i) (a.arr + i)) >>= fun m => loop D.prod m (fun i m => copyCell m (q + (2 * i + 1)) (b.arr + i)) >>= fun m =>
      Res.ok (mk0 q D false, m)) = _
    rw [g1, Res.ok_bind, k1, Res.ok_bind]
  · have := k2.1.has ix hi
    simp only [RA.flat_pos hi, if_pos, if_neg (show ¬ (1 : Nat) = 0 by omega)] at this
    exact this

/-- Parts of different sizes are not refused: here the second has one number and the first two. -/
theorem C588_ofParts_fails : ofParts (fun _ => (9 : Int)) 100 ⟨0, [2], [1], 2, 2, 2, -1, false⟩ ⟨50, [1], [1], 1, 1, 1, -1, false⟩
    (fun c => if c < 2 ∨ c = 50 then some 1 else none) = .ub := rfl

theorem C588_real_partial {x : CB} {D : List Nat} {G : List Nat → Cx α} {m : Buf α} (h : x.Is D G m) (junk : Nat → α) (q : Nat) (hf : Free m q (RA.cells D)) :
    ∃ y m', realPart junk q x m = .ok (y, m') ∧ y.Fresh q D (fun ix => (G ix).re) m m' ∧ x.Is D G m' := by
  have hx0 := h.old hf junk
  have hr := RA.raw_is h.ne junk q m
  have hc := (RA.cells_pos D).2
  have hq : ∀ c, q ≤ c → c < q + D.prod → ¬ x.Owns c := fun c h1 h2 ho => h.not_free hf ho ⟨h1, by omega⟩
  obtain ⟨m', h1, h2⟩ := RA.all_run hr (fun i => (flat D G ⟨junk 0, junk 0⟩ i).re) (fun i m => copyCell m (q + i) (x.arr + 2 * i)) (by
    intro i hi m' hm
    have e : m' (x.arr + 2 * i) = some (flat D G ⟨junk 0, junk 0⟩ i).re := by
      rw [hm _ fun j hj _ e => hq (q + j) (by omega) (by omega) (e ▸ h.owns (by omega)), (hx0.at _ hi).1]
    rw [copyCell, read_ok e, Res.ok_bind])
  refine ⟨_, m', ?_, RA.fresh_of rfl rfl (RA.becomes_congr h2 fun ix hi => by rw [RA.flat_pos hi]), hx0.keep fun c ho => h2.2 c fun k => hq c k.1 k.2 ho⟩
  rw [realPart, h.dims, RA.raw_ok h.ne, Res.ok_bind, h.asize]
  exact (congrArg (fun r : Res (Buf α) => r >>= fun m => Res.ok (_, m)) h1).trans rfl

theorem C588_imag_partial {x : CB} {D : List Nat} {G : List Nat → Cx α} {m : Buf α} (h : x.Is D G m) (junk : Nat → α) (q : Nat) (hf : Free m q (RA.cells D)) :
    ∃ y m', imagPart junk q x m = .ok (y, m') ∧ y.Fresh q D (fun ix => (G ix).im) m m' ∧ x.Is D G m' := by
  have hx0 := h.old hf junk
  have hr := RA.raw_is h.ne junk q m
  have hc := (RA.cells_pos D).2
  have hq : ∀ c, q ≤ c → c < q + D.prod → ¬ x.Owns c := fun c h1 h2 ho => h.not_free hf ho ⟨h1, by omega⟩
  obtain ⟨m', h1, h2⟩ := RA.all_run hr (fun i => (flat D G ⟨junk 0, junk 0⟩ i).im) (fun i m => copyCell m (q + i) (x.arr + (2 * i + 1))) (by
    intro i hi m' hm
    have e : m' (x.arr + (2 * i + 1)) = some (flat D G ⟨junk 0, junk 0⟩ i).im := by
      rw [hm _ fun j hj _ e => hq (q + j) (by omega) (by omega) (e ▸ h.owns (by omega)), (hx0.at _ hi).2]
    rw [copyCell, read_ok e, Res.ok_bind])
  refine ⟨_, m', ?_, RA.fresh_of rfl rfl (RA.becomes_congr h2 fun ix hi => by rw [RA.flat_pos hi]), hx0.keep fun c ho => h2.2 c fun k => hq c k.1 k.2 ho⟩
  rw [imagPart, h.dims, RA.raw_ok h.ne, Res.ok_bind, h.asize]
  exact (congrArg (fun r : Res (Buf α) => r >>= fun m => Res.ok (_, m)) h1).trans rfl

example : ∃ x m1 y m2, ofParts (fun _ => (9 : Int)) 100 ⟨0, [2], [1], 2, 2, 2, -1, false⟩ ⟨50, [2], [1], 2, 2, 2, -1, false⟩
    (fun c => if c < 2 ∨ c = 50 ∨ c = 51 then some c else none) = .ok (x, m1) ∧ x.get [1] m1 = .ok ⟨1, 51⟩ ∧ imagPart (fun _ => 9) 200 x m1 = .ok (y, m2) ∧ m2 201 = some 51 :=
  ⟨_, _, _, _, rfl, rfl, rfl, rfl⟩

/-! ### C589: access -/

theorem C589_get {x : CB} {D : List Nat} {F : List Nat → Cx α} {m : Buf α} (h : x.Is D F m) {ix : List Nat} (hi : InRange ix D) : x.get ix m = .ok (F ix) := by
  have k := h.has ix hi
  rw [get, h.ix hi, Res.ok_bind, h.coffs, Nat.add_assoc]
  exact getC_ok k.1 k.2

/-- Writing one entry. -/
theorem put_ok {x : CB} {D : List Nat} {F : List Nat → Cx α} {m : Buf α} (h : x.Is D F m) {ix : List Nat} (hi : InRange ix D) (v : Cx α) :
    ∃ m', setC (x.arr + 2 * position D ix) (x.arr + (2 * position D ix + 1)) v m = .ok m' ∧ x.Becomes D (fun jx => if jx = ix then v else F jx) m m' := by
  have hp := position_lt hi
  refine ⟨_, setC_ok (h.some_at (by omega)) (h.some_at (by omega)) (by omega) v, h.mk' fun jx hj => ?_, fun c hc => ?_⟩
  · by_cases e : jx = ix
    · subst e
      simp only [if_pos]
      exact ⟨trivial, if_neg (by omega)⟩
    · have : position D jx ≠ position D ix := fun k => e (position_inj hj hi k)
      simp only [if_neg e]
      rw [if_neg (by omega), if_neg (by omega), if_neg (by omega), if_neg (by omega)]
      exact h.has jx hj
  · show (if _ then _ else _) = _
    rw [if_neg (h.not_owns hc (by omega)), if_neg (h.not_owns hc (by omega))]

theorem C589_set {x : CB} {D : List Nat} {F : List Nat → Cx α} {m : Buf α} (h : x.Is D F m) {ix : List Nat} (hi : InRange ix D) (v : Cx α) :
    ∃ m', x.set ix v m = .ok m' ∧ x.Becomes D (fun jx => if jx = ix then v else F jx) m m' := by
  rw [set, h.ix hi, Res.ok_bind, h.coffs, Nat.add_assoc]
  exact put_ok h hi v

theorem C589_inc [Add α] {x : CB} {D : List Nat} {F : List Nat → Cx α} {m : Buf α} (h : x.Is D F m) {ix : List Nat} (hi : InRange ix D) (v : Cx α) :
    ∃ m', x.inc ix v m = .ok m' ∧ x.Becomes D (fun jx => if jx = ix then F ix + v else F jx) m m' := by
  have k := h.has ix hi
  rw [inc, h.ix hi, Res.ok_bind, h.coffs, Nat.add_assoc, incC_ok k.1 k.2 (by omega)]
  exact put_ok h hi _

theorem C589_get2 {x : CB} {a b : Nat} {F : List Nat → Cx α} {m : Buf α} (h : x.Is [a, b] F m) {i j : Nat} (hi : i < a) (hj : j < b) : x.get2 i j m = .ok (F [i, j]) :=
  h.get2 hi hj

theorem C589_set2 {x : CB} {a b : Nat} {F : List Nat → Cx α} {m : Buf α} (h : x.Is [a, b] F m) {i j : Nat} (hi : i < a) (hj : j < b) (v : Cx α) :
    ∃ m', x.set2 i j v m = .ok m' ∧ x.Becomes [a, b] (fun jx => if jx = [i, j] then v else F jx) m m' := by
  rw [set2, h.ix2, Res.ok_bind, h.coffs, Nat.add_assoc]
  exact put_ok h (.cons hi (.cons hj .nil)) v

theorem C589_inc2 [Add α] {x : CB} {a b : Nat} {F : List Nat → Cx α} {m : Buf α} (h : x.Is [a, b] F m) {i j : Nat} (hi : i < a) (hj : j < b) (v : Cx α) :
    ∃ m', x.inc2 i j v m = .ok m' ∧ x.Becomes [a, b] (fun jx => if jx = [i, j] then F [i, j] + v else F jx) m m' := by
  have hi' : InRange [i, j] [a, b] := .cons hi (.cons hj .nil)
  have k := h.has _ hi'
  rw [inc2, h.ix2, Res.ok_bind, h.coffs, Nat.add_assoc, incC_ok k.1 k.2 (by omega)]
  exact put_ok h hi' _

example : ∃ x m1 m2, sequential (fun _ => (9 : Int)) 0 [2, 2] (fun _ => none) = .ok (x, m1) ∧ x.inc [1, 0] ⟨3, 4⟩ m1 = .ok m2 ∧ x.get2 1 0 m2 = .ok ⟨5, 4⟩ ∧ x.get [1, 1] m2 = .ok ⟨3, 0⟩ :=
  ⟨_, _, _, rfl, rfl, rfl, rfl⟩

/-! ### C590: views -/

theorem C590_view_partial {x : CB} {D : List Nat} {F : List Nat → Cx α} {m : Buf α} (h : x.Is D F m) : ∃ y, x.view = .ok y ∧ y.Is D F m ∧ y.arr = x.arr ∧ y.isView = true :=
  ⟨mk0 x.arr D true, by rw [view, h.dims, noalloc_ok h.ne], mk0_is h.ne _ _ h.has, rfl, rfl⟩

/-- The same numbers with other sizes, in the same order. -/
theorem C590_shape_partial {x : CB} {D E : List Nat} {F : List Nat → Cx α} {m : Buf α} (h : x.Is D F m) (hE : E ≠ []) (he : E.prod = D.prod) :
    ∃ y G, x.viewAsShape E = .ok y ∧ y.Is E G m ∧ y.arr = x.arr ∧ y.isView = true ∧
      ∀ ix jx, InRange ix D → InRange jx E → position D ix = position E jx → G jx = F ix := by
  by_cases hD : D.prod = 0
  · exact ⟨mk0 x.arr E true, fun _ => F [], noalloc_ok hE _ _, mk0_is hE _ _ fun ix hi => by have := position_lt hi; omega, rfl, rfl, fun ix _ hi => by
      have := position_lt hi; omega⟩
  obtain ⟨ix0, _, _⟩ := GT.surj (dims := D) (i := 0) (by omega)
  refine ⟨mk0 x.arr E true, fun jx => flat D F (F ix0) (position E jx), noalloc_ok hE _ _, mk0_is hE _ _ fun jx hj => h.at _ (he ▸ position_lt hj), rfl, rfl,
    fun ix jx hi _ e => by show flat D F (F ix0) (position E jx) = _; rw [← e, RA.flat_pos hi]⟩

/-- Sizes that do not agree are not refused: the view of one number as two reads past the end. -/
theorem C590_shape_fails : ∃ x m' y, zero (fun _ => (9 : Int)) 0 [1] (fun _ => none) = .ok (x, m') ∧ x.viewAsShape [2] = .ok y ∧ y.get [1] m' = .ub := ⟨_, _, _, rfl, rfl, rfl⟩

/-- The first axes as one. -/
theorem C590_fuse_partial {x : CB} {A B : List Nat} {F : List Nat → Cx α} {m : Buf α} (h : x.Is (A ++ B) F m) (hB : B ≠ []) :
    ∃ y G, x.fuseFirst A.length = .ok y ∧ y.Is (A.prod :: B) G m ∧ y.arr = x.arr ∧ y.isView = true ∧
      ∀ ia ib, InRange ia A → InRange ib B → G (position A ia :: ib) = F (ia ++ ib) := by
  obtain ⟨y, G, h1, h2, h3, h4, h5⟩ := C590_shape_partial h (E := A.prod :: B) (by simp) (by simp)
  refine ⟨y, G, ?_, h2, h3, h4, fun ia ib ha hb => h5 _ _ (GT.inRange_app ha hb) (.cons (position_lt ha) hb) ?_⟩
  · have hl : 0 < B.length := List.length_pos_of_ne_nil hB
    rw [fuseFirst, h.dims, decide_eq_true (by rw [List.length_append]; omega), Res.assrt_true, Res.ok_bind, List.take_left, List.drop_left, ← List.prod_eq_foldl]
    exact h1
  · rw [GT.position_app ha.length]; rfl

/-- The first axis, and the others as one. -/
theorem C590_pick_first_partial {x : CB} {d : Nat} {B : List Nat} {F : List Nat → Cx α} {m : Buf α} (h : x.Is (d :: B) F m) (hB : B ≠ []) :
    ∃ v, x.pick 0 = .ok v ∧ v.n0 = d ∧ v.n1 = B.prod ∧ ∀ i ib, i < d → InRange ib B →
      m (v.arr + i * v.s0 + position B ib * v.s1) = some (F (i :: ib)).re ∧ m (v.arrc + i * v.s0 + position B ib * v.s1) = some (F (i :: ib)).im := by
  have hl : 0 < B.length := List.length_pos_of_ne_nil hB
  have hs : Res.get (rmStridesFrom 2 (d :: B)) ((d :: B).length - 1) = .ok 2 := by
    rw [GT.strides_from, Res.get, List.getElem?_map, GT.strides_get (by simp)]
    simp
  refine ⟨⟨x.arr, x.arr + 1, d, B.prod, 2 * B.prod, 2⟩, ?_, rfl, rfl, fun i ib hi hb => ?_⟩
  · rw [pick, h.dims, h.strides', h.coffs]
    rw [decide_eq_true (show 2 ≤ (d :: B).length by rw [List.length_cons]; omega), Res.assrt_true, Res.ok_bind, hs, Res.ok_bind, if_pos rfl]
    rw [rmStridesFrom_cons]
    show (Res.need (decide ((2 : Nat) ≠ 0)) >>= fun _ => Res.ok _) = _
    rw [decide_eq_true (show (2 : Nat) ≠ 0 by omega), Res.need_true, Res.ok_bind]
    rw [show 2 * B.prod / 2 = B.prod by omega]
  · have := h.has (i :: ib) (.cons hi hb)
    have e : position (d :: B) (i :: ib) = i * B.prod + position B ib := rfl
    rw [e] at this
    refine ⟨?_, ?_⟩
    · rw [← this.1]; congr 1; show x.arr + i * (2 * B.prod) + _ * 2 = _; ring
    · rw [← this.2]; congr 1; show x.arr + 1 + i * (2 * B.prod) + _ * 2 = _; ring

/-- The last axis, and the others as one. -/
theorem C590_pick_last_partial {x : CB} {d : Nat} {A : List Nat} {F : List Nat → Cx α} {m : Buf α} (h : x.Is (A ++ [d]) F m) (hA : A ≠ []) (hd : d ≠ 0) :
    ∃ v, x.pick A.length = .ok v ∧ v.n0 = d ∧ v.n1 = A.prod ∧ ∀ ia i, InRange ia A → i < d →
      m (v.arr + i * v.s0 + position A ia * v.s1) = some (F (ia ++ [i])).re ∧ m (v.arrc + i * v.s0 + position A ia * v.s1) = some (F (ia ++ [i])).im := by
  have hl : 0 < A.length := List.length_pos_of_ne_nil hA
  have hlen : (A ++ [d]).length = A.length + 1 := by simp
  have hs : Res.get (rmStridesFrom 2 (A ++ [d])) (A.length + 1 - 1) = .ok 2 := by
    rw [GT.strides_from, Res.get, List.getElem?_map, GT.strides_get (by rw [hlen]; omega)]
    simp
  have hs2 : Res.get (rmStridesFrom 2 (A ++ [d])) (A.length + 1 - 2) = .ok (2 * d) := by
    rw [GT.strides_from, Res.get, List.getElem?_map, GT.strides_get (by rw [hlen]; omega), show A.length + 1 - 2 + 1 = A.length by omega, List.drop_left]
    simp
  have hg : Res.get (A ++ [d]) (A.length + 1 - 1) = .ok d := by
    rw [Res.get]; simp
  refine ⟨⟨x.arr, x.arr + 1, d, A.prod, 2, 2 * d⟩, ?_, rfl, rfl, fun ia i ha hi => ?_⟩
  · rw [pick, h.dims, h.strides', h.coffs, h.asize]
    rw [hlen, decide_eq_true (show 2 ≤ A.length + 1 by omega), Res.assrt_true, Res.ok_bind, hs, Res.ok_bind, if_neg (show ¬ A.length = 0 by omega),
      if_pos (show A.length = A.length + 1 - 1 by omega), hg, Res.ok_bind, hs2, Res.ok_bind, decide_eq_true hd, Res.need_true, Res.ok_bind]
    rw [List.prod_append, List.prod_singleton, Nat.mul_div_cancel _ (Nat.pos_of_ne_zero hd)]
  · have hI : InRange [i] [d] := .cons hi .nil
    have := h.has (ia ++ [i]) (GT.inRange_app ha hI)
    have e : position (A ++ [d]) (ia ++ [i]) = position A ia * d + i := by rw [GT.position_app ha.length]; simp [position]
    rw [e] at this
    refine ⟨?_, ?_⟩
    · rw [← this.1]; congr 1; show x.arr + i * 2 + _ * (2 * d) = _; ring
    · rw [← this.2]; congr 1; show x.arr + 1 + i * 2 + _ * (2 * d) = _; ring

/-- An axis in the middle is refused. -/
theorem C590_pick_middle_partial {x : CB} {D : List Nat} {F : List Nat → Cx α} {m : Buf α} (h : x.Is D F m) {i : Nat} (h1 : 0 < i) (h2 : i + 1 < D.length) : x.pick i = .throw := by
  have hs : Res.get (rmStridesFrom 2 D) (D.length - 1) = .ok 2 := by
    rw [GT.strides_from, Res.get, List.getElem?_map, GT.strides_get (by omega)]
    simp [show D.length - 1 + 1 = D.length by omega]
  rw [pick, h.dims, h.strides']
  rw [decide_eq_true (show 2 ≤ D.length by omega), Res.assrt_true, Res.ok_bind, hs, Res.ok_bind, if_neg (show ¬ i = 0 by omega), if_neg (show ¬ i = D.length - 1 by omega)]

example : ∃ x m1 v, sequential (fun _ => (9 : Int)) 100 [2, 3, 4] (fun _ => none) = .ok (x, m1) ∧ x.pick 2 = .ok v ∧ v = ⟨100, 101, 4, 6, 2, 8⟩ := ⟨_, _, _, rfl, rfl, rfl⟩

example : ∃ x m1 y, sequential (fun _ => (9 : Int)) 100 [2, 3, 4] (fun _ => none) = .ok (x, m1) ∧ x.fuseFirst 2 = .ok y ∧ y.dims = [6, 4] ∧ y.get [5, 3] m1 = .ok ⟨23, 0⟩ :=
  ⟨_, _, _, rfl, rfl, rfl, rfl⟩

end CB

end Cnine
