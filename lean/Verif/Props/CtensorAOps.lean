import Verif.Props.CtensorA
import Verif.Props.RtensorAProd

/-!
# C484–C489: complex tensors of the old backend — copies, chunks, slices, transposes, products
-/

namespace Cnine

variable {α : Type}

namespace CA

open RA (cells Free flat nth two_lt two_inj)

/-! ### C484: copies -/

/-- The new tensor holds the same numbers, in memory of its own. -/
theorem C484_copy {x : CA} {D : List Nat} {G : List Nat → Cx α} {m : Buf α} (h : x.Is D G m) (hm : 2 * x.cst ≤ x.memsize) (junk : Nat → α) (q : Nat)
    (hf : Free m q x.memsize) :
    ∃ y m', copy junk q x m = .ok (y, m') ∧ y.arr = q ∧ y.isView = false ∧ y.Is D G m' ∧ x.Is D G m' ∧ y.Apart x ∧
      ∀ c, ¬ (q ≤ c ∧ c < q + x.memsize) → m' c = m c := by
  have hr := h.room
  have d : Cx α := ⟨junk 0, junk 0⟩
  have hx : x.Is D G (allocRaw junk m q x.memsize) := h.old hf junk
  have out := fun c hc => h.not_free (c := c) hf hc
  obtain ⟨m1, a1, a2, a3⟩ := stdCopy_ok (allocRaw junk m q x.memsize) x.arr D.prod q (fun i => (flat D G d i).re)
    (fun i hi => by rw [RA.raw_at _ _ ⟨by omega, by omega⟩]; rfl) (fun i hi => (hx.at d hi).1)
    (fun i hi j hj e => out _ (h.owns hj).1 ⟨by omega, by omega⟩)
  have hx1 : x.Is D G m1 := hx.keep fun c hc => a3 c fun i hi e => out c hc ⟨by omega, by omega⟩
  obtain ⟨m2, b1, b2, b3⟩ := stdCopy_ok m1 x.arrc D.prod (q + x.cst) (fun i => (flat D G d i).im)
    (fun i hi => by rw [a3 _ fun j hj e => by omega, RA.raw_at _ _ ⟨by omega, by omega⟩]; rfl) (fun i hi => (hx1.at d hi).2)
    (fun i hi j hj e => out _ (h.owns hj).2 ⟨by omega, by omega⟩)
  refine ⟨{ x with arr := q, arrc := q + x.cst, nbu := -1, isView := false }, m2, ?_, rfl, rfl,
    ⟨h.ne, h.dims, h.strides, h.asize, h.room, fun ix hi => ?_, fun i j hi hj => by simp only; omega⟩, hx1.keep fun c hc => b3 c fun i hi e => out c hc ⟨by omega, by omega⟩, ?_, ?_⟩
  · rw [copy]
    simp only [h.asize]
    rw [a1, Res.ok_bind, b1, Res.ok_bind]
  · have hl := position_lt hi
    have e := RA.flat_pos hi G d
    refine ⟨?_, ?_⟩
    · show m2 (q + position D ix) = _
      rw [b3 _ fun j hj => by omega, a2 _ hl, e]
    · show m2 (q + x.cst + position D ix) = _
      rw [b2 _ hl, e]
  · intro c hc hx
    refine out c hx ?_
    have := h.asize
    simp only [Owns] at hc
    omega
  · intro c hc
    rw [b3 c fun i hi e => hc ⟨by omega, by omega⟩, a3 c fun i hi e => hc ⟨by omega, by omega⟩, RA.raw_off _ _ hc]

/-- Copying the numbers of a tensor that is apart. -/
theorem C484_set {r x : CA} {D : List Nat} {F G : List Nat → Cx α} {m : Buf α} (hr : r.Is D F m) (hx : x.Is D G m) (ha : r.Apart x) :
    ∃ m', r.setT x m = .ok m' ∧ r.Becomes D G m m' := by
  obtain ⟨m1, g1, a1, a2, e1⟩ := C370_setT hr.re hx.re rfl ha.parts.1
  have a2' : r.re.Becomes D (fun ix => (G ix).re) m m1 := RA.becomes_congr a2 fun ix hi => e1 ix ix hi hi rfl
  obtain ⟨m2, g2, b1, b2, e2⟩ := C370_setT (hr.im_after a2') (im_operand hr hx a2' rfl (.inl ha)) rfl ha.parts.2.2.2
  have b2' : r.im.Becomes D (fun ix => (G ix).im) m1 m2 := RA.becomes_congr b2 fun ix hi => e2 ix ix hi hi rfl
  exact ⟨m2, by rw [setT, a1, Res.ok_bind, b1], two hr a2' b2'⟩

/-- Assignment to a view that is apart and has as many numbers. -/
theorem C484_assign_view {r x : CA} {D E : List Nat} {F G : List Nat → Cx α} {m : Buf α} (hr : r.Is E F m) (hx : x.Is D G m) (he : E.prod = D.prod) (ha : r.Apart x) :
    ∃ y m', assignView r x m = .ok (y, m') ∧ y.Same r ∧ y.Becomes D G m m' := by
  have hY : ∀ m' : Buf α, (∀ ix, InRange ix D → m' (r.arr + position D ix) = some (G ix).re ∧ m' (r.arrc + position D ix) = some (G ix).im) →
      ({ r with dims := x.dims, strides := x.strides, asize := x.asize, memsize := x.memsize, cst := x.cst } : CA).Is D G m' := fun m' h =>
    ⟨hx.ne, hx.dims, hx.strides, hx.asize, hx.room, h, fun i j hi hj => hr.apart i j (he ▸ hi) (he ▸ hj)⟩
  obtain d | d : Nonempty (Cx α) ∨ D.prod = 0 := by
    by_cases h : D.prod = 0
    · exact .inr h
    · exact .inl ⟨G []⟩
  · obtain ⟨d⟩ := d
    obtain ⟨m1, a1, a2, a3⟩ := stdCopy_ok m x.arr D.prod r.arr (fun i => (flat D G d i).re)
      (fun i hi => by rw [(hr.at d (he ▸ hi)).1]; rfl) (fun i hi => (hx.at d hi).1)
      (fun i hi j hj e => ha _ (hr.owns (he ▸ hi)).1 (e ▸ (hx.owns hj).1))
    have hx1 : x.Is D G m1 := hx.keep fun c hc => a3 c fun i hi e => ha _ (hr.owns (he ▸ hi)).1 (e ▸ hc)
    obtain ⟨m2, b1, b2, b3⟩ := stdCopy_ok m1 x.arrc D.prod r.arrc (fun i => (flat D G d i).im)
      (fun i hi => by rw [a3 _ fun j hj e => hr.apart j i (he ▸ hj) (he ▸ hi) e.symm, (hr.at d (he ▸ hi)).2]; rfl) (fun i hi => (hx1.at d hi).2)
      (fun i hi j hj e => ha _ (hr.owns (he ▸ hi)).2 (e ▸ (hx.owns hj).2))
    refine ⟨{ r with dims := x.dims, strides := x.strides, asize := x.asize, memsize := x.memsize, cst := x.cst }, m2, ?_, ⟨rfl, rfl⟩, hY m2 fun ix hi => ?_, fun c hc => ?_⟩
    · rw [assignView]
      simp only [hx.asize]
      rw [a1, Res.ok_bind, b1, Res.ok_bind]
    · have hl := position_lt hi
      have e := RA.flat_pos hi G d
      refine ⟨?_, ?_⟩
      · rw [b3 _ fun j hj => hr.apart _ _ (he ▸ hl) (he ▸ hj), a2 _ hl, e]
      · rw [b2 _ hl, e]
    · have e := hx.asize
      simp only [Owns] at hc
      rw [b3 c fun i hi e => hc (by omega), a3 c fun i hi e => hc (by omega)]
  · refine ⟨{ r with dims := x.dims, strides := x.strides, asize := x.asize, memsize := x.memsize, cst := x.cst }, m, ?_, ⟨rfl, rfl⟩, hY m fun ix hi => absurd (position_lt hi) (by omega), fun _ _ => rfl⟩
    have e : ∀ a b, stdCopy m a 0 b = .ok m := fun a b => by rw [stdCopy, if_neg (by omega)]; rfl
    rw [assignView]
    simp only [hx.asize, d]
    rw [e, Res.ok_bind, e, Res.ok_bind]

/-- The sum of two tensors as a new one. -/
theorem C484_plus [Add α] {x y : CA} {D : List Nat} {F G : List Nat → Cx α} {m : Buf α} (hx : x.Is D F m) (hm : 2 * x.cst ≤ x.memsize) (hy : y.Is D G m) (junk : Nat → α) (q : Nat)
    (hf : Free m q x.memsize) :
    ∃ z m', plus junk q x y m = .ok (z, m') ∧ z.arr = q ∧ z.isView = false ∧ z.Is D (fun ix => F ix + G ix) m' ∧ x.Is D F m' ∧ y.Is D G m' := by
  obtain ⟨z, m1, h1, h2, h3, h4, h5, h6, h7⟩ := C484_copy hx hm junk q hf
  have hzy : z.Apart y := by
    intro c hc hyc
    refine hy.not_free hf hyc ?_
    by_contra hn
    have h8 : (copy junk q x m) = .ok (z, m1) := h1
    have hs := h4.asize
    have : z.arrc = q + x.cst := by
      rw [copy] at h8
      simp only at h8
      obtain ⟨n1, e1, e2⟩ := Res.bind_eq_ok.1 h8
      obtain ⟨n2, e3, e4⟩ := Res.bind_eq_ok.1 e2
      cases e4; rfl
    have hr := hx.room
    simp only [Owns] at hc
    omega
  have hy1 : y.Is D G m1 := hy.keep fun c hc => h7 c (hy.not_free hf hc)
  obtain ⟨m2, b1, b2⟩ := C481_add h4 hy1 (.inl hzy)
  exact ⟨z, m2, by rw [plus, h1, Res.ok_bind]; simp only; rw [b1, Res.ok_bind], h2, h3, b2.1, h5.stays b2 h6, hy1.stays b2 hzy⟩

/-- The sum of a list of tensors, added. -/
theorem C484_addSum [AddCommMonoid α] {r : CA} {D : List Nat} {F : List Nat → Cx α} {m : Buf α} (hr : r.Is D F m) (v : List (CA × (List Nat → Cx α)))
    (hv : ∀ p ∈ v, p.1.Is D p.2 m ∧ r.Apart p.1) :
    ∃ m', r.addSum (v.map Prod.fst) m = .ok m' ∧ r.Becomes D (fun ix => F ix + (v.map fun p => p.2 ix).sum) m m' := by
  induction v generalizing F m with
  | nil => exact ⟨m, rfl, becomes_congr ⟨hr, fun _ _ => rfl⟩ fun ix _ => by simp⟩
  | cons p v ih =>
    obtain ⟨h1, h2⟩ := hv p (by simp)
    obtain ⟨m1, a1, a2⟩ : ∃ m1, (loop r.asize m fun j m => updC (· + ·) (· + ·) r p.1 j j m) = .ok m1 ∧ r.Becomes D (fun ix => F ix + p.2 ix) m m1 := by
      obtain ⟨n1, c1, c2⟩ := C370_add hr.re h1.re (.inl h2.parts.1)
      obtain ⟨n2, d1, d2⟩ := C370_add (hr.im_after c2) (im_operand hr h1 c2 rfl (.inl h2)) (.inl h2.parts.2.2.2)
      rw [RA.add, RA.zipT, show r.re.asize = p.1.re.asize from hr.asize.trans h1.asize.symm, decide_eq_true rfl, Res.assrt_true, Res.ok_bind,
        ← show r.re.asize = p.1.re.asize from hr.asize.trans h1.asize.symm] at c1
      rw [RA.add, RA.zipT, show r.im.asize = p.1.im.asize from hr.asize.trans h1.asize.symm, decide_eq_true rfl, Res.assrt_true, Res.ok_bind,
        ← show r.im.asize = p.1.im.asize from hr.asize.trans h1.asize.symm] at d1
      refine ⟨n2, weave (P := r.re.Owns) (Q := r.im.Owns) hr.parts r.asize
        (fun i hi => .upd (· + ·) (hr.re.owns (hr.asize ▸ hi)) (hr.parts _ (hr.re.owns (hr.asize ▸ hi))) fun h => h2 _ (.inr h) (h1.owns (hr.asize ▸ hi)).1)
        (fun i hi => .upd (· + ·) (hr.im.owns (hr.asize ▸ hi)) (hr.parts' _ (hr.im.owns (hr.asize ▸ hi))) fun h => h2 _ (.inl h) (h1.owns (hr.asize ▸ hi)).2) c1 d1, ?_⟩
      exact becomes_congr (two hr c2 d2) fun ix _ => rfl
    obtain ⟨m2, b1, b2⟩ := ih a2.1 fun q hq => ⟨(hv q (by simp [hq])).1.stays a2 (hv q (by simp [hq])).2, (hv q (by simp [hq])).2⟩
    refine ⟨m2, ?_, becomes_congr ⟨b2.1, fun c hc => (b2.2 c hc).trans (a2.2 c hc)⟩ fun ix _ => by simp only [List.map_cons, List.sum_cons, add_assoc]⟩
    rw [addSum, List.map_cons, Res.forM_cons, decide_eq_true (h1.asize.trans hr.asize.symm), Res.assrt_true, Res.ok_bind, a1, Res.ok_bind]
    exact b1

/-- The conjugate as a new tensor. -/
theorem C484_conj [Neg α] {x : CA} {D : List Nat} {G : List Nat → Cx α} {m : Buf α} (hx : x.Is D G m) (junk : Nat → α) (q : Nat) (hf : Free m q (2 * cells D)) :
    ∃ y m', conj junk q x m = .ok (y, m') ∧ y.Fresh q D (fun ix => ⟨(G ix).re, -(G ix).im⟩) m m' ∧ x.Is D G m' := by
  have h0 := raw_is hx.ne junk q m
  have hx0 := hx.old hf junk
  have ha := hx.apart_mk0 hf
  have hc := (RA.cells_pos D).2
  have d : Cx α := ⟨junk 0, junk 0⟩
  obtain ⟨m1, a1, a2, a3⟩ := stdCopy_ok (allocRaw junk m q (2 * cells D)) x.arr D.prod q (fun i => (flat D G d i).re)
    (fun i hi => by rw [RA.raw_at _ _ ⟨by omega, by omega⟩]; rfl) (fun i hi => (hx0.at d hi).1)
    (fun i hi j hj e => ha _ (h0.owns hi).1 (e ▸ (hx.owns hj).1))
  have hx1 : x.Is D G m1 := hx0.keep fun c hc => a3 c fun i hi e => ha _ (h0.owns hi).1 (e ▸ hc)
  obtain ⟨m2, b1, b2, b3⟩ := loop_cells D.prod (fun i => q + cells D + i) (fun i => -(flat D G d i).im) (fun i m => do
      let b ← m.read (x.arrc + i)
      m.write (q + cells D + i) (-b)) m1 (fun i _ j _ e => by omega)
    (fun i hi => by rw [a3 _ fun j hj e => by omega, RA.raw_at _ _ ⟨by omega, by omega⟩]; rfl)
    (fun i hi m' hm => by
      rw [read_ok (a := (flat D G d i).im) (by rw [hm _ fun j hj _ e => ha _ (h0.owns hj).2 (e ▸ (hx.owns hi).2), (hx1.at d hi).2]), Res.ok_bind])
  refine ⟨mk0 q D, m2, ?_, ⟨rfl, rfl, mk0_is hx.ne q fun ix hi => ?_, fun c hc' => ?_⟩, hx1.keep fun c hc => b3 c fun i hi e => ha _ (h0.owns hi).2 (e ▸ hc)⟩
  · rw [conj, hx.dims, raw_ok hx.ne, Res.ok_bind, hx.asize]
    simp only
    rw [show stdCopy (allocRaw junk m q (2 * cells D)) x.arr D.prod (mk0 q D).arr = _ from a1, Res.ok_bind]
    exact (congrArg (fun r : Res (Buf α) => r >>= fun m => Res.ok (mk0 q D, m)) b1).trans rfl
  · have hl := position_lt hi
    have e := RA.flat_pos hi G d
    exact ⟨by rw [b3 _ fun j hj => by omega, a2 _ hl, e], by rw [b2 _ hl, e]⟩
  · rw [b3 c fun i hi e => hc' ⟨by omega, by omega⟩, a3 c fun i hi e => hc' ⟨by omega, by omega⟩, RA.raw_off _ _ hc']

example : ∃ y m', conj (fun _ => (9 : Int)) 200 exR exM = .ok (y, m') ∧ y.get [2] m' = .ok ⟨2, -34⟩ := ⟨_, _, rfl, rfl⟩

/-! ### Steps on two arrays -/

/-- Loops that update both parts. -/
theorem weave_upd2 (op op' : α → α → α) {r x : CA} {D E : List Nat} {F G : List Nat → Cx α} {m m1 m2 : Buf α} (hr : r.Is D F m) (hx : x.Is E G m) (ha : r.Apart x)
    {n k : Nat} {p s : Nat → Nat → Nat} (hp : ∀ i, i < n → ∀ j, j < k → p i j < D.prod ∧ s i j < E.prod)
    (h1 : (loop n m fun i m => loop k m fun j m => updCell op m (r.arr + p i j) (x.arr + s i j)) = .ok m1)
    (h2 : (loop n m1 fun i m => loop k m fun j m => updCell op' m (r.arrc + p i j) (x.arrc + s i j)) = .ok m2) :
    (loop n m fun i m => loop k m fun j m => updC op op' r x (p i j) (s i j) m) = .ok m2 :=
  weave2 (P := r.re.Owns) (Q := r.im.Owns) hr.parts n k
    (fun i hi j hj => .upd op (hr.re.owns (hp i hi j hj).1) (hr.parts _ (hr.re.owns (hp i hi j hj).1)) fun h => ha _ (.inr h) (hx.owns (hp i hi j hj).2).1)
    (fun i hi j hj => .upd op' (hr.im.owns (hp i hi j hj).1) (hr.parts' _ (hr.im.owns (hp i hi j hj).1)) fun h => ha _ (.inl h) (hx.owns (hp i hi j hj).2).2) h1 h2

/-- Loops that combine a smaller tensor into part of a larger one. -/
theorem cput (op op' : α → α → α) {r x : CA} {A B E : List Nat} {d e offs : Nat} {F G : List Nat → Cx α} {m : Buf α} (hr : r.Is (A ++ d :: B) F m) (ho : offs + e ≤ d)
    (hx : x.Is E G m) (hE : E.prod = A.prod * (e * B.prod)) (ha : r.Apart x) (H : Nat → Nat → Nat → Cx α)
    (hH : ∀ a, a < A.prod → ∀ k, k < e → ∀ b, b < B.prod → ∀ m' : Buf α, x.Is E G m' →
      m' (x.arr + (a * (e * B.prod) + (k * B.prod + b))) = some (H a k b).re ∧ m' (x.arrc + (a * (e * B.prod) + (k * B.prod + b))) = some (H a k b).im) :
    ∃ m', (loop A.prod m fun j m => loop (e * B.prod) m fun i m => updC op op' r x (j * (d * B.prod) + offs * B.prod + i) (j * (e * B.prod) + i) m) = .ok m' ∧
      r.Becomes (A ++ d :: B) (fun ix => if offs ≤ ix.getD A.length 0 ∧ ix.getD A.length 0 < offs + e then
        ⟨op (F ix).re (H (position A (ix.take A.length)) (ix.getD A.length 0 - offs) (position B (ix.drop (A.length + 1)))).re,
          op' (F ix).im (H (position A (ix.take A.length)) (ix.getD A.length 0 - offs) (position B (ix.drop (A.length + 1)))).im⟩ else F ix) m m' := by
  have hin : ∀ a, a < A.prod → ∀ k, k < e → ∀ b, b < B.prod → a * (e * B.prod) + (k * B.prod + b) < E.prod := fun a h1 k h2 b h3 => by
    rw [hE]; exact two_lt h1 (two_lt h2 h3)
  obtain ⟨m1, a1, a2⟩ := put_core op (X := x.arr) hr.re ho (fun a k b => (H a k b).re) fun a h1 k h2 b h3 =>
    ⟨(hH a h1 k h2 b h3 m hx).1, fun h => ha _ (.inl h) (hx.owns (hin a h1 k h2 b h3)).1⟩
  have hx1 : x.Is E G m1 := hx.keep fun c hc => a2.2 c fun k => ha c (.inl k) hc
  obtain ⟨m2, b1, b2⟩ := put_core op' (X := x.arrc) (hr.im_after a2) ho (fun a k b => (H a k b).im) fun a h1 k h2 b h3 =>
    ⟨(hH a h1 k h2 b h3 m1 hx1).2, fun h => ha _ (.inr h) (hx.owns (hin a h1 k h2 b h3)).2⟩
  refine ⟨m2, weave_upd2 op op' hr hx ha (fun i hi j hj => ⟨?_, ?_⟩) a1 b1, becomes_congr (two hr a2 b2) fun ix _ => ?_⟩
  · rw [axis_prod, Nat.add_assoc]
    refine two_lt hi ?_
    have := Nat.mul_le_mul_right B.prod ho
    rw [Nat.add_mul] at this
    omega
  · rw [hE]; exact two_lt hi hj
  · split <;> rfl

/-- Two loops that store a number in each place of a tensor with axes `A` and `B`. -/
theorem cpair {r : CA} {A B : List Nat} {F : List Nat → Cx α} {m : Buf α} (hr : r.Is (A ++ B) F m) (new : List Nat → Cx α) (step : Nat → Nat → Buf α → Res (Buf α))
    (hs : ∀ ia, InRange ia A → ∀ ib, InRange ib B → ∀ m' : Buf α, (∀ c, ¬ r.Owns c → m' c = m c) →
      m' (r.arr + (position A ia * B.prod + position B ib)) = some (F (ia ++ ib)).re → m' (r.arrc + (position A ia * B.prod + position B ib)) = some (F (ia ++ ib)).im →
      step (position A ia) (position B ib) m' =
        setC (r.arr + (position A ia * B.prod + position B ib)) (r.arrc + (position A ia * B.prod + position B ib)) (new (ia ++ ib)) m') :
    ∃ m', (loop A.prod m fun j m => loop B.prod m fun i m => step j i m) = .ok m' ∧ r.Becomes (A ++ B) new m m' := by
  have hlt : ∀ p ∈ pairs A.prod B.prod, p.1 * B.prod + p.2 < (A ++ B).prod := fun p hp => by
    rw [mem_pairs] at hp
    rw [List.prod_append]; exact two_lt hp.1 hp.2
  have hinj : ∀ p ∈ pairs A.prod B.prod, ∀ q ∈ pairs A.prod B.prod, p.1 * B.prod + p.2 = q.1 * B.prod + q.2 → p = q := fun p hp q hq e => by
    rw [mem_pairs] at hp hq
    exact Prod.ext (two_inj hp.2 hq.2 e).1 (two_inj hp.2 hq.2 e).2
  rw [loop2_eq]
  obtain ⟨m', h1, h2, h3⟩ := run hr (pairs A.prod B.prod) (nodup_pairs _ _) (fun p => p.1 * B.prod + p.2) hlt hinj (fun p => new (nth A p.1 ++ nth B p.2))
    (fun m p => step p.1 p.2 m) (by
    rintro ⟨a, b⟩ hp m' hm
    have hp' := mem_pairs.1 hp
    obtain ⟨a1, a2⟩ := nth_range hp'.1
    obtain ⟨b1, b2⟩ := nth_range hp'.2
    have hown : ∀ c, ¬ r.Owns c → m' c = m c := fun c hc => hm c fun j hj _ =>
      ⟨fun e => hc (e ▸ (hr.owns (hlt j hj)).1), fun e => hc (e ▸ (hr.owns (hlt j hj)).2)⟩
    have h := hs (nth A a) a1 (nth B b) b1 m' hown
    simp only at a2 b2
    rw [a2, b2] at h
    have k1 : m' (r.arr + (a * B.prod + b)) = some (F (nth A a ++ nth B b)).re := by
      rw [hm _ fun j hj hne => ⟨fun e => hne (hinj _ hj (a, b) hp (by simp only at e ⊢; omega)), hr.apart _ _ (hlt _ hp) (hlt _ hj)⟩]
      exact pair_at hr.re hp'.1 hp'.2
    have k2 : m' (r.arrc + (a * B.prod + b)) = some (F (nth A a ++ nth B b)).im := by
      rw [hm _ fun j hj hne => ⟨(hr.apart _ _ (hlt _ hj) (hlt _ hp)).symm, fun e => hne (hinj _ hj (a, b) hp (by simp only at e ⊢; omega))⟩]
      exact pair_at hr.im hp'.1 hp'.2
    exact h k1 k2)
  refine ⟨m', h1, ⟨hr.ne, hr.dims, hr.strides, hr.asize, hr.room, fun ix hi => ?_, hr.apart⟩, fun c hc => h3 c fun p hp =>
    ⟨fun e => hc (e ▸ (hr.owns (hlt p hp)).1), fun e => hc (e ▸ (hr.owns (hlt p hp)).2)⟩⟩
  obtain ⟨i1, i2⟩ := GT.inRange_split hi
  have := h2 (position A (ix.take A.length), position B (ix.drop A.length)) (mem_pairs.2 ⟨position_lt i1, position_lt i2⟩)
  simp only at this
  rw [nth_pos i1, nth_pos i2, ← GT.position_app i1.length, List.take_append_drop] at this
  exact this

/-- Three loops that store a number in each place of a tensor with one axis singled out. -/
theorem ctake {r : CA} {A B : List Nat} {d : Nat} {F : List Nat → Cx α} {m : Buf α} (hr : r.Is (A ++ d :: B) F m) (new : List Nat → Cx α)
    (step : Nat → Nat → Nat → Buf α → Res (Buf α))
    (hs : ∀ ia, InRange ia A → ∀ k, k < d → ∀ ib, InRange ib B → ∀ m' : Buf α, (∀ c, ¬ r.Owns c → m' c = m c) →
      step (position A ia) k (position B ib) m' = setC (r.arr + (position A ia * (d * B.prod) + k * B.prod + position B ib))
        (r.arrc + (position A ia * (d * B.prod) + k * B.prod + position B ib)) (new (ia ++ k :: ib)) m') :
    ∃ m', (loop A.prod m fun j m => loop d m fun k m => loop B.prod m fun i m => step j k i m) = .ok m' ∧ r.Becomes (A ++ d :: B) new m m' := by
  have hlt : ∀ p ∈ idx3 A.prod d B.prod, p.1 * (d * B.prod) + p.2.1 * B.prod + p.2.2 < (A ++ d :: B).prod := fun p hp => by
    rw [mem_idx3] at hp
    rw [axis_prod, Nat.add_assoc]; exact two_lt hp.1 (two_lt hp.2.1 hp.2.2)
  have hinj : ∀ p ∈ idx3 A.prod d B.prod, ∀ q ∈ idx3 A.prod d B.prod,
      p.1 * (d * B.prod) + p.2.1 * B.prod + p.2.2 = q.1 * (d * B.prod) + q.2.1 * B.prod + q.2.2 → p = q := fun p hp q hq e => by
    rw [mem_idx3] at hp hq
    rw [Nat.add_assoc, Nat.add_assoc] at e
    obtain ⟨e1, e2⟩ := two_inj (two_lt hp.2.1 hp.2.2) (two_lt hq.2.1 hq.2.2) e
    obtain ⟨e3, e4⟩ := two_inj hp.2.2 hq.2.2 e2
    exact Prod.ext e1 (Prod.ext e3 e4)
  rw [loop3_eq]
  obtain ⟨m', h1, h2, h3⟩ := run hr (idx3 A.prod d B.prod) (nodup_idx3 _ _ _) (fun p => p.1 * (d * B.prod) + p.2.1 * B.prod + p.2.2) hlt hinj
    (fun p => new (nth A p.1 ++ p.2.1 :: nth B p.2.2)) (fun m p => step p.1 p.2.1 p.2.2 m) (by
    rintro ⟨a, k, b⟩ hp m' hm
    have hp' := mem_idx3.1 hp
    obtain ⟨a1, a2⟩ := nth_range hp'.1
    obtain ⟨b1, b2⟩ := nth_range hp'.2.2
    have h := hs (nth A a) a1 k hp'.2.1 (nth B b) b1 m' fun c hc => hm c fun j hj _ =>
      ⟨fun e => hc (e ▸ (hr.owns (hlt j hj)).1), fun e => hc (e ▸ (hr.owns (hlt j hj)).2)⟩
    simp only at a2 b2
    rw [a2, b2] at h
    exact h)
  refine ⟨m', h1, ⟨hr.ne, hr.dims, hr.strides, hr.asize, hr.room, fun ix hi => ?_, hr.apart⟩, fun c hc => h3 c fun p hp =>
    ⟨fun e => hc (e ▸ (hr.owns (hlt p hp)).1), fun e => hc (e ▸ (hr.owns (hlt p hp)).2)⟩⟩
  obtain ⟨ia, k, ib, rfl, a1, a2, a3, a4⟩ := RA.range_axis hi
  have := h2 (position A ia, k, position B ib) (mem_idx3.2 ⟨position_lt a1, a2, position_lt a3⟩)
  simp only at this
  rw [nth_pos a1, nth_pos a3, Nat.add_assoc (_ * _), ← RA.pos_axis a1.length] at this
  exact this

theorem copyC_ok {r x : CA} {p s : Nat} {m : Buf α} {b : Cx α} (h1 : m (x.arr + s) = some b.re) (h2 : m (x.arrc + s) = some b.im) (hne : x.arrc + s ≠ r.arr + p) :
    copyC r x p s m = setC (r.arr + p) (r.arrc + p) b m := by
  rw [copyC, copyCell, read_ok h1, Res.ok_bind, setC]
  unfold Buf.write
  cases e : m (r.arr + p) with
  | none => rfl
  | some v =>
    rw [Res.ok_bind, Res.ok_bind, copyCell, read_ok (a := b.im) (by rw [if_neg hne, h2]), Res.ok_bind]
    rfl

theorem updC_ok {op op' : α → α → α} {r x : CA} {p s : Nat} {m : Buf α} {a b : Cx α} (k1 : m (r.arr + p) = some a.re) (k2 : m (r.arrc + p) = some a.im)
    (h1 : m (x.arr + s) = some b.re) (h2 : m (x.arrc + s) = some b.im) (hne : x.arrc + s ≠ r.arr + p) (hp : r.arrc + p ≠ r.arr + p) :
    updC op op' r x p s m = setC (r.arr + p) (r.arrc + p) ⟨op a.re b.re, op' a.im b.im⟩ m := by
  rw [updC, updCell_ok k1 h1, setC]
  unfold Buf.write
  rw [k1]
  simp only [Res.ok_bind]
  rw [updCell_ok (a := a.im) (b := b.im) (by rw [if_neg hp, k2]) (by rw [if_neg hne, h2])]
  rfl

/-- A matrix from a function. -/
theorem C484_ofFn (f : Nat → Nat → Cx α) (junk : Nat → α) (q a b : Nat) (m : Buf α) :
    ∃ y m', ofFn f junk q [a, b] m = .ok (y, m') ∧ y.Fresh q [a, b] (fun ix => f (ix.getD 0 0) (ix.getD 1 0)) m m' := by
  have hne : [a, b] ≠ [] := by simp
  have h0 := raw_is hne junk q m
  obtain ⟨m', h1, h2⟩ := cpair (A := [a]) (B := [b]) h0 (fun ix => f (ix.getD 0 0) (ix.getD 1 0)) (fun i j m => (mk0 q [a, b]).setInts [i, j] (f i j) m) (by
    intro ia a1 ib a2 m' hm k1 k2
    obtain ⟨i, l, h1, h2, rfl⟩ := List.forall₂_cons_right_iff.1 a1
    rw [List.forall₂_nil_right_iff] at h2
    subst h2
    obtain ⟨j, l, h3, h4, rfl⟩ := List.forall₂_cons_right_iff.1 a2
    rw [List.forall₂_nil_right_iff] at h4
    subst h4
    have ei : position [a] [i] = i := by simp [position]
    have ej : position [b] [j] = j := by simp [position]
    rw [ei, ej, setInts, show Res.assrt (decide ((mk0 q [a, b]).dims.length = [i, j].length)) = .ok () from rfl, Res.ok_bind, set,
      h0.re.offset (ix := [i, j]) (by simp [InRange, h1, h3]), Res.ok_bind]
    simp [position])
  simp only [List.prod_singleton] at h1
  refine ⟨mk0 q [a, b], m', ?_, fresh_of h2⟩
  rw [ofFn, raw_ok hne, Res.ok_bind]
  simp only
  rw [show Res.assrt (decide ([a, b].length = 2)) = .ok () from rfl, Res.ok_bind]
  exact (congrArg (fun r : Res (Buf α) => r >>= fun m => Res.ok (mk0 q [a, b], m)) h1).trans rfl

/-! ### C485: chunks and slices -/

/-- Combining a tensor into entries `offs`, …, `offs+e-1` of one axis of a larger one (`add_to_chunk`, `set_chunk`). -/
theorem C485_toChunk (op : α → α → α) {r x : CA} {A B : List Nat} {d e offs : Nat} {F G : List Nat → Cx α} {m : Buf α} (hr : r.Is (A ++ d :: B) F m)
    (hx : x.Is (A ++ e :: B) G m) (ho : offs + e ≤ d) (hz : e * B.prod ≠ 0) (ha : r.Apart x) :
    ∃ m', toChunk op r A.length offs x m = .ok m' ∧ r.Becomes (A ++ d :: B) (fun ix =>
      if offs ≤ ix.getD A.length 0 ∧ ix.getD A.length 0 < offs + e then
        ⟨op (F ix).re (G (ix.set A.length (ix.getD A.length 0 - offs))).re, op (F ix).im (G (ix.set A.length (ix.getD A.length 0 - offs))).im⟩ else F ix) m m' := by
  have hsup : x.asize / (e * B.prod) = A.prod := by rw [hx.asize, axis_prod]; exact Nat.mul_div_cancel _ (Nat.pos_of_ne_zero hz)
  obtain ⟨m', h1, h2⟩ := cput op op hr ho hx (axis_prod A B e) ha (fun a k b => G (nth A a ++ k :: nth B b)) (fun a h1 k h2 b h3 m' hx' =>
    ⟨axis_at hx'.re h1 h2 h3, axis_at hx'.im h1 h2 h3⟩)
  refine ⟨m', ?_, becomes_congr h2 fun ix hi => ?_⟩
  · rw [toChunk, decide_eq_true (by rw [hr.dims, hx.dims]; simp), Res.assrt_true, Res.ok_bind, fits_axis A B (by omega) (r := r.re) (x := x.re) hr.dims hx.dims, Res.assrt_true, Res.ok_bind,
      hx.re.above (by simp), Res.ok_bind, List.drop_left, List.prod_cons,
      show Res.need (decide (e * B.prod ≠ 0)) = .ok () by rw [decide_eq_true hz]; rfl, Res.ok_bind]
    simp only [hsup]
    rw [hr.re.above (by simp), Res.ok_bind, List.drop_left, List.prod_cons, show Res.get r.strides A.length = _ from hr.re.stride (by simp), Res.ok_bind, drop_axis]
    exact h1
  · obtain ⟨ia, k, ib, rfl, a1, a2, a3, a4⟩ := RA.range_axis hi
    rw [← a4, RA.getD_axis, List.take_left, drop_axis, nth_pos a1, nth_pos a3, RA.set_axis]

/-- A new tensor from `n` entries of an axis. -/
theorem C485_chunk {x : CA} {A B : List Nat} {d n offs : Nat} {G : List Nat → Cx α} {m : Buf α} (hx : x.Is (A ++ d :: B) G m) (ho : offs + n ≤ d)
    (hz : d * B.prod ≠ 0) (junk : Nat → α) (q : Nat) (hf : Free m q (2 * cells (A ++ n :: B))) :
    ∃ y m', chunk junk q x A.length offs n m = .ok (y, m') ∧
      y.Fresh q (A ++ n :: B) (fun ix => G (ix.set A.length (ix.getD A.length 0 + offs))) m m' ∧ x.Is (A ++ d :: B) G m' := by
  have hne : A ++ n :: B ≠ [] := by simp
  have h0 := raw_is hne junk q m
  have hx0 := hx.old hf junk
  have ha := hx.apart_mk0 hf
  have hsup : x.asize / (B.prod * d) = A.prod := by
    rw [hx.asize, axis_prod, Nat.mul_comm d]; exact Nat.mul_div_cancel _ (Nat.pos_of_ne_zero (by rwa [Nat.mul_comm] at hz))
  obtain ⟨m', h1, h2⟩ := ctake h0 (fun ix => G (ix.set A.length (ix.getD A.length 0 + offs)))
    (fun j a i m => copyC (mk0 q (A ++ n :: B)) x (j * (n * B.prod) + a * B.prod + i) (j * (d * B.prod) + (a + offs) * B.prod + i) m) (by
    intro ia a1 k a2 ib a3 m' hm
    have hx' : x.Is (A ++ d :: B) G m' := hx0.keep fun c hc => hm c fun k => ha c k hc
    have e1 := axis_at hx'.re (position_lt a1) (show k + offs < d by omega) (position_lt a3)
    have e2 := axis_at hx'.im (position_lt a1) (show k + offs < d by omega) (position_lt a3)
    rw [nth_pos a1, nth_pos a3, ← Nat.add_assoc (_ * _)] at e1 e2
    rw [copyC_ok e1 e2, ← a1.length, RA.getD_axis, RA.set_axis]
    intro e
    have i1 : position A ia * (n * B.prod) + k * B.prod + position B ib < (A ++ n :: B).prod := by
      rw [axis_prod, Nat.add_assoc]; exact two_lt (position_lt a1) (two_lt a2 (position_lt a3))
    have i2 : position A ia * (d * B.prod) + (k + offs) * B.prod + position B ib < (A ++ d :: B).prod := by
      rw [axis_prod, Nat.add_assoc]; exact two_lt (position_lt a1) (two_lt (by omega) (position_lt a3))
    exact ha _ (h0.owns i1).1 (e ▸ (hx.owns i2).2))
  refine ⟨mk0 q (A ++ n :: B), m', ?_, fresh_of h2, hx0.stays h2 ha⟩
  rw [chunk, hx.dims, gvSet, if_pos (by simp), Res.ok_bind, RA.set_axis, raw_ok hne, Res.ok_bind]
  simp only
  rw [show Res.get x.strides A.length = _ from hx.re.stride (by simp), Res.ok_bind, drop_axis, get_at (v := d) (by rw [List.getElem?_append_right (Nat.le_refl _)]; simp), Res.ok_bind,
    show Res.need (decide (B.prod * d ≠ 0)) = .ok () by rw [decide_eq_true (by rwa [Nat.mul_comm])]; rfl, Res.ok_bind, hsup,
    hx.re.above (by simp), Res.ok_bind, List.drop_left, List.prod_cons, h0.re.above (by simp), Res.ok_bind, List.drop_left, List.prod_cons,
    show Res.get (mk0 q (A ++ n :: B)).strides A.length = _ from h0.re.stride (by simp), Res.ok_bind, drop_axis, h1, Res.ok_bind]

/-- Adding to one slice. -/
theorem C485_addToSlice [Add α] {r x : CA} {A B : List Nat} {d offs : Nat} {F G : List Nat → Cx α} {m : Buf α} (hr : r.Is (A ++ d :: B) F m)
    (hx : x.Is (A ++ B) G m) (ho : offs < d) (hz : B.prod ≠ 0) (ha : r.Apart x) :
    ∃ m', r.addToSlice A.length offs x m = .ok m' ∧ r.Becomes (A ++ d :: B) (fun ix =>
      if ix.getD A.length 0 = offs then F ix + G (ix.eraseIdx A.length) else F ix) m m' := by
  have hsup : x.asize / B.prod = A.prod := by rw [hx.asize, List.prod_append]; exact Nat.mul_div_cancel _ (Nat.pos_of_ne_zero hz)
  obtain ⟨m', h1, h2⟩ := cput (· + ·) (· + ·) (e := 1) (offs := offs) hr (by omega) hx (by rw [List.prod_append, Nat.one_mul]) ha (fun a k b => G (nth A a ++ nth B b))
    (fun a h1 k h2 b h3 m' hx' => by
      rw [one_run 1 B a k b rfl h2]
      exact ⟨pair_at hx'.re h1 h3, pair_at hx'.im h1 h3⟩)
  refine ⟨m', ?_, becomes_congr h2 fun ix hi => ?_⟩
  · rw [addToSlice, decide_eq_true (by rw [hr.dims, hx.dims]; simp; omega), Res.assrt_true, Res.ok_bind, slice_fits A B (r := r.re) (x := x.re) hr.dims hx.dims, Res.assrt_true, Res.ok_bind,
      hx.re.above (by simp), Res.ok_bind, List.drop_left,
      show Res.need (decide (B.prod ≠ 0)) = .ok () by rw [decide_eq_true hz]; rfl, Res.ok_bind]
    simp only [hsup]
    rw [hr.re.above (by simp), Res.ok_bind, List.drop_left, List.prod_cons, show Res.get r.strides A.length = _ from hr.re.stride (by simp), Res.ok_bind, drop_axis]
    simp only [Nat.one_mul] at h1
    exact h1
  · obtain ⟨ia, k, ib, rfl, a1, a2, a3, a4⟩ := RA.range_axis hi
    rw [← a4, RA.getD_axis, List.take_left, drop_axis, nth_pos a1, nth_pos a3, RA.erase_axis]
    by_cases c : k = offs
    · rw [if_pos c, if_pos (by omega)]; rfl
    · rw [if_neg c, if_neg (by omega)]

/-- Adding one tensor to each slice. -/
theorem C485_addToSlices [Add α] {r : CA} {A B : List Nat} {d : Nat} {F : List Nat → Cx α} {m : Buf α} (hr : r.Is (A ++ d :: B) F m)
    (v : List CA) (G : Nat → List Nat → Cx α) (hl : v.length = d) (hd : 0 < d) (hz : B.prod ≠ 0)
    (hv : ∀ (k : Nat) (x : CA), v[k]? = some x → x.Is (A ++ B) (G k) m ∧ r.Apart x) :
    ∃ m', r.addToSlices A.length v m = .ok m' ∧ r.Becomes (A ++ d :: B) (fun ix => F ix + G (ix.getD A.length 0) (ix.eraseIdx A.length)) m m' := by
  obtain ⟨x0, hx0⟩ : ∃ x, v[0]? = some x := ⟨_, List.getElem?_eq_getElem (by omega)⟩
  obtain ⟨hi0, _⟩ := hv 0 x0 hx0
  have hsup : x0.asize / B.prod = A.prod := by rw [hi0.asize, List.prod_append]; exact Nat.mul_div_cancel _ (Nat.pos_of_ne_zero hz)
  have key : ∀ n, n ≤ d → ∃ m', (loop n m fun a m => loop A.prod m fun j m => do
      let x ← Res.get v a
      loop B.prod m fun i m => updC (· + ·) (· + ·) r x (j * (d * B.prod) + a * B.prod + i) (j * B.prod + i) m) = .ok m' ∧
      r.Becomes (A ++ d :: B) (fun ix => if ix.getD A.length 0 < n then F ix + G (ix.getD A.length 0) (ix.eraseIdx A.length) else F ix) m m' := by
    intro n
    induction n with
    | zero => exact fun _ => ⟨m, rfl, becomes_congr ⟨hr, fun _ _ => rfl⟩ fun ix _ => by rw [if_neg (by omega)]⟩
    | succ n ih =>
      intro hn
      obtain ⟨m1, e1, e2⟩ := ih (by omega)
      obtain ⟨x, hx⟩ : ∃ x, v[n]? = some x := ⟨_, List.getElem?_eq_getElem (by omega)⟩
      obtain ⟨hi, hap⟩ := hv n x hx
      obtain ⟨m2, h1, h2⟩ := cput (· + ·) (· + ·) (e := 1) (offs := n) e2.1 (by omega) (hi.stays e2 hap) (by rw [List.prod_append, Nat.one_mul]) hap
        (fun a k b => G n (nth A a ++ nth B b)) (fun a h1 k h2 b h3 m' hx' => by
          rw [one_run 1 B a k b rfl h2]
          exact ⟨pair_at hx'.re h1 h3, pair_at hx'.im h1 h3⟩)
      refine ⟨m2, ?_, becomes_congr ⟨h2.1, fun c hc => (h2.2 c hc).trans (e2.2 c hc)⟩ fun ix hi => ?_⟩
      · rw [RA.loop_snoc, e1, Res.ok_bind]
        simp only [Nat.one_mul] at h1
        rw [← h1]
        apply loop_congr
        intro j _ s
        rw [get_at hx, Res.ok_bind]
      · obtain ⟨ia, k, ib, rfl, a1, a2, a3, a4⟩ := RA.range_axis hi
        rw [← a4, RA.getD_axis, List.take_left, drop_axis, nth_pos a1, nth_pos a3, RA.erase_axis]
        by_cases c : k = n
        · subst c
          rw [if_pos (by omega), if_neg (by omega), if_pos (by omega)]; rfl
        · rw [if_neg (by omega)]
          by_cases c' : k < n
          · rw [if_pos c', if_pos (by omega)]
          · rw [if_neg c', if_neg (by omega)]
  obtain ⟨m', h1, h2⟩ := key d (Nat.le_refl _)
  refine ⟨m', ?_, becomes_congr h2 fun ix hi => ?_⟩
  · rw [addToSlices, get_at (v := d) (by rw [hr.dims, List.getElem?_append_right (Nat.le_refl _)]; simp), Res.ok_bind, decide_eq_true hl, Res.assrt_true, Res.ok_bind,
      get_at hx0, Res.ok_bind, decide_eq_true (by rw [hr.dims, hi0.dims]; simp; omega), Res.assrt_true, Res.ok_bind, slice_fits A B (r := r.re) (x := x0.re) hr.dims hi0.dims, Res.assrt_true, Res.ok_bind,
      hi0.re.above (by simp), Res.ok_bind, List.drop_left,
      show Res.need (decide (B.prod ≠ 0)) = .ok () by rw [decide_eq_true hz]; rfl, Res.ok_bind]
    simp only [hsup]
    rw [hr.re.above (by simp), Res.ok_bind, List.drop_left, List.prod_cons, show Res.get r.strides A.length = _ from hr.re.stride (by simp), Res.ok_bind, drop_axis]
    exact h1
  · obtain ⟨ia, k, ib, rfl, a1, a2, a3, a4⟩ := RA.range_axis hi
    rw [← a4, RA.getD_axis, if_pos a2]

/-- Adding one slice of a larger tensor. -/
theorem C485_addSliceOf [Add α] {r x : CA} {A B : List Nat} {d offs : Nat} {F G : List Nat → Cx α} {m : Buf α} (hr : r.Is (A ++ B) F m)
    (hx : x.Is (A ++ d :: B) G m) (ho : offs < d) (hz : B.prod ≠ 0) (ha : r.Apart x) :
    ∃ m', r.addSliceOf x A.length offs m = .ok m' ∧ r.Becomes (A ++ B) (fun ix => F ix + G (ix.insertIdx A.length offs)) m m' := by
  have hsup : r.asize / B.prod = A.prod := by rw [hr.asize, List.prod_append]; exact Nat.mul_div_cancel _ (Nat.pos_of_ne_zero hz)
  obtain ⟨m', h1, h2⟩ := cpair hr (fun ix => F ix + G (ix.insertIdx A.length offs))
    (fun j i m => updC (· + ·) (· + ·) r x (j * B.prod + i) (j * (d * B.prod) + offs * B.prod + i) m) (by
    intro ia a1 ib a2 m' hm k1 k2
    have hx' : x.Is (A ++ d :: B) G m' := hx.keep fun c hc => hm c fun k => ha c k hc
    have e1 := axis_at hx'.re (position_lt a1) ho (position_lt a2)
    have e2 := axis_at hx'.im (position_lt a1) ho (position_lt a2)
    rw [nth_pos a1, nth_pos a2, ← Nat.add_assoc (_ * _)] at e1 e2
    have i1 : position A ia * B.prod + position B ib < (A ++ B).prod := by rw [List.prod_append]; exact two_lt (position_lt a1) (position_lt a2)
    have i2 : position A ia * (d * B.prod) + offs * B.prod + position B ib < (A ++ d :: B).prod := by
      rw [axis_prod, Nat.add_assoc]; exact two_lt (position_lt a1) (two_lt ho (position_lt a2))
    rw [updC_ok k1 k2 e1 e2 (fun e => ha _ (hr.owns i1).1 (e ▸ (hx.owns i2).2)) (hr.apart _ _ i1 i1).symm, ← a1.length, RA.insert_axis]
    rfl)
  refine ⟨m', ?_, h2⟩
  rw [addSliceOf, decide_eq_true (by rw [hr.dims, hx.dims]; simp; omega), Res.assrt_true, Res.ok_bind, slice_fits A B (r := x.re) (x := r.re) hx.dims hr.dims, Res.assrt_true, Res.ok_bind,
    hr.re.above (by simp), Res.ok_bind, List.drop_left,
    show Res.need (decide (B.prod ≠ 0)) = .ok () by rw [decide_eq_true hz]; rfl, Res.ok_bind]
  simp only [hsup]
  rw [hx.re.above (by simp), Res.ok_bind, List.drop_left, List.prod_cons, show Res.get x.strides A.length = _ from hx.re.stride (by simp), Res.ok_bind, drop_axis]
  exact h1

/-- A slice as a new tensor. -/
theorem C485_slice {x : CA} {A B : List Nat} {d offs : Nat} {G : List Nat → Cx α} {m : Buf α} (hx : x.Is (A ++ d :: B) G m) (ho : offs < d) (hz : B.prod ≠ 0)
    (hne : A ++ B ≠ []) (junk : Nat → α) (q : Nat) (hf : Free m q (2 * cells (A ++ B))) :
    ∃ y m', slice junk q x A.length offs m = .ok (y, m') ∧ y.Fresh q (A ++ B) (fun ix => G (ix.insertIdx A.length offs)) m m' ∧ x.Is (A ++ d :: B) G m' := by
  have h0 := raw_is hne junk q m
  have hx0 := hx.old hf junk
  have ha := hx.apart_mk0 hf
  have hsup : (mk0 q (A ++ B)).asize / B.prod = A.prod := by
    show (A ++ B).prod / B.prod = A.prod
    rw [List.prod_append]; exact Nat.mul_div_cancel _ (Nat.pos_of_ne_zero hz)
  obtain ⟨m', h1, h2⟩ := cpair h0 (fun ix => G (ix.insertIdx A.length offs))
    (fun j i m => copyC (mk0 q (A ++ B)) x (j * B.prod + i) (j * (d * B.prod) + offs * B.prod + i) m) (by
    intro ia a1 ib a2 m' hm _ _
    have hx' : x.Is (A ++ d :: B) G m' := hx0.keep fun c hc => hm c fun k => ha c k hc
    have e1 := axis_at hx'.re (position_lt a1) ho (position_lt a2)
    have e2 := axis_at hx'.im (position_lt a1) ho (position_lt a2)
    rw [nth_pos a1, nth_pos a2, ← Nat.add_assoc (_ * _)] at e1 e2
    have i1 : position A ia * B.prod + position B ib < (A ++ B).prod := by rw [List.prod_append]; exact two_lt (position_lt a1) (position_lt a2)
    have i2 : position A ia * (d * B.prod) + offs * B.prod + position B ib < (A ++ d :: B).prod := by
      rw [axis_prod, Nat.add_assoc]; exact two_lt (position_lt a1) (two_lt ho (position_lt a2))
    rw [copyC_ok e1 e2 (fun e => ha _ (h0.owns i1).1 (e ▸ (hx.owns i2).2)), ← a1.length, RA.insert_axis])
  refine ⟨mk0 q (A ++ B), m', ?_, fresh_of h2, hx0.stays h2 ha⟩
  rw [slice, hx.dims, gvRemove, decide_eq_true (by simp), Res.assrt_true, Res.ok_bind, Res.ok_bind, List.take_left, drop_axis, raw_ok hne, Res.ok_bind]
  simp only
  rw [h0.re.above (by simp), Res.ok_bind, List.drop_left, show Res.need (decide (B.prod ≠ 0)) = .ok () by rw [decide_eq_true hz]; rfl, Res.ok_bind, hsup,
    hx.re.above (by simp), Res.ok_bind, List.drop_left, List.prod_cons, show Res.get x.strides A.length = _ from hx.re.stride (by simp), Res.ok_bind, drop_axis, h1, Res.ok_bind]

/-- A matrix 2×3 of the numbers 0, 1, … with imaginary parts 100, 101, …; at 0. -/
def exMat : CA := ⟨0, 32, [2, 3], [3, 1], 6, 64, 32, -1, false⟩
def exMatM : Buf Int := fun c => if c < 6 then some (c : Int) else if 32 ≤ c ∧ c < 38 then some (c + 68 : Int) else none

example : ∃ y m', slice (fun _ => 9) 64 exMat 1 2 exMatM = .ok (y, m') ∧ y.get [1] m' = .ok ⟨5, 105⟩ := ⟨_, _, rfl, rfl⟩
example : ∃ y m', chunk (fun _ => 9) 64 exMat 1 1 2 exMatM = .ok (y, m') ∧ y.dims = [2, 2] ∧ y.get [1, 0] m' = .ok ⟨4, 104⟩ := ⟨_, _, rfl, rfl, rfl⟩

/-! ### C486: add_chunk_of -/

/-- Half of a vector of 64 numbers, taken into a new tensor of zeros: the second round reads past the real parts of the vector, adds what is there to the imaginary parts of the
tensor, and then runs past the end of its block. -/
theorem C486_addChunkOf_fails : ∃ r m', zero (fun _ => (9 : Int)) 128 [32] (fun c => if c < 128 then some 1 else none) = .ok (r, m') ∧
    addChunkOf r ⟨0, 64, [64], [1], 64, 128, 64, -1, false⟩ 0 0 32 m' = .ub := ⟨_, _, rfl, rfl⟩

/-- Two of four numbers, taken into a tensor of two, the rest of the block of `x` holding 7: the second round writes past the end of the tensor, in the unused part of its block. -/
theorem C486_addChunkOf_past_end_fails : ∃ r m' m'', zero (fun _ => (9 : Int)) 64 [2] (fun c => if c < 64 then some 7 else none) = .ok (r, m') ∧
    addChunkOf r ⟨0, 32, [4], [1], 4, 64, 32, -1, false⟩ 0 0 2 m' = .ok m'' ∧ m'' 64 = some 7 ∧ m' 66 = some 0 ∧ m'' 66 = some 7 :=
  ⟨_, _, _, rfl, rfl, rfl, rfl, rfl⟩

/-- It is right when the number of rounds, computed from the size of `x` and the axes of this tensor, happens to be right.  Missing: all other sizes. -/
theorem C486_addChunkOf_partial [Add α] {r x : CA} {A B : List Nat} {d e n offs : Nat} {F G : List Nat → Cx α} {m : Buf α} (hr : r.Is (A ++ e :: B) F m)
    (hx : x.Is (A ++ d :: B) G m) (he : e ≤ d) (hn : n ≤ e) (ho : offs + n ≤ d) (hz : B.prod * e ≠ 0) (hd : A.prod * (d - e) < e) (ha : r.Apart x) :
    ∃ m', addChunkOf r x A.length offs n m = .ok m' ∧ r.Becomes (A ++ e :: B) (fun ix =>
      if ix.getD A.length 0 < n then F ix + G (ix.set A.length (ix.getD A.length 0 + offs)) else F ix) m m' := by
  have hb : 0 < B.prod := Nat.pos_of_ne_zero fun h => by rw [h] at hz; simp at hz
  have hsup : x.asize / (B.prod * e) = A.prod := by
    rw [hx.asize, axis_prod, ← Nat.mul_assoc, Nat.mul_comm (A.prod * d), Nat.mul_div_mul_left _ _ hb]
    apply Nat.div_eq_of_lt_le
    · exact Nat.mul_le_mul_left _ he
    · rw [show d = e + (d - e) by omega, Nat.mul_add, Nat.add_mul]; omega
  have pre : ∀ {y z : RA} {f g : List Nat → α} {m0 : Buf α}, y.Is (A ++ e :: B) f m0 → z.Is (A ++ d :: B) g m0 →
      RA.addChunkOf y z A.length offs n m0 = loop A.prod m0 fun j m => loop n m fun a m => loop B.prod m fun i m =>
        updCell (· + ·) m (y.arr + (j * (e * B.prod) + a * B.prod + i)) (z.arr + (j * (d * B.prod) + (a + offs) * B.prod + i)) := by
    intro y z f g m0 hy hz'
    rw [RA.addChunkOf, decide_eq_true (by rw [hy.dims, hz'.dims]; simp), Res.assrt_true, Res.ok_bind, fits_axis A B he hz'.dims hy.dims, Res.assrt_true, Res.ok_bind,
      hy.stride (by simp), Res.ok_bind, drop_axis, get_at (v := e) (by rw [hy.dims, List.getElem?_append_right (Nat.le_refl _)]; simp), Res.ok_bind,
      show Res.need (decide (B.prod * e ≠ 0)) = .ok () by rw [decide_eq_true hz]; rfl, Res.ok_bind]
    simp only [hz'.asize, ← hx.asize, hsup]
    rw [hy.above (by simp), Res.ok_bind, List.drop_left, List.prod_cons, hz'.above (by simp), Res.ok_bind, List.drop_left, List.prod_cons,
      hz'.stride (by simp), Res.ok_bind, drop_axis]
  obtain ⟨m1, a1, a2⟩ := C375_addChunkOf_partial hr.re hx.re he hn ho hz hd ha.parts.1
  have hx1 : x.im.Is (A ++ d :: B) (fun ix => (G ix).im) m1 := hx.im.keep fun c hc => a2.2 c fun k => ha.parts.2.1 c k hc
  obtain ⟨m2, b1, b2⟩ := C375_addChunkOf_partial (hr.im_after a2) hx1 he hn ho hz hd ha.parts.2.2.2
  rw [pre hr.re hx.re] at a1
  rw [pre (hr.im_after a2) hx1] at b1
  have i1 : ∀ j, j < A.prod → ∀ k, k < n → ∀ i, i < B.prod → j * (e * B.prod) + k * B.prod + i < (A ++ e :: B).prod := fun j hj k hk i hi => by
    rw [axis_prod, Nat.add_assoc]; exact two_lt hj (two_lt (by omega) hi)
  have i2 : ∀ j, j < A.prod → ∀ k, k < n → ∀ i, i < B.prod → j * (d * B.prod) + (k + offs) * B.prod + i < (A ++ d :: B).prod := fun j hj k hk i hi => by
    rw [axis_prod, Nat.add_assoc]; exact two_lt hj (two_lt (by omega) hi)
  have w := weave3 (P := r.re.Owns) (Q := r.im.Owns) hr.parts A.prod n B.prod
    (fun j hj k hk i hi => .upd (· + ·) (hr.re.owns (i1 j hj k hk i hi)) (hr.parts _ (hr.re.owns (i1 j hj k hk i hi))) fun h => ha _ (.inr h) (hx.owns (i2 j hj k hk i hi)).1)
    (fun j hj k hk i hi => .upd (· + ·) (hr.im.owns (i1 j hj k hk i hi)) (hr.parts' _ (hr.im.owns (i1 j hj k hk i hi))) fun h => ha _ (.inl h) (hx.owns (i2 j hj k hk i hi)).2) a1 b1
  refine ⟨m2, ?_, becomes_congr (two hr a2 b2) fun ix _ => ?_⟩
  · rw [addChunkOf, decide_eq_true (by rw [hr.dims, hx.dims]; simp), Res.assrt_true, Res.ok_bind, fits_axis A B he (r := x.re) (x := r.re) hx.dims hr.dims, Res.assrt_true, Res.ok_bind,
      show Res.get r.strides A.length = _ from hr.re.stride (by simp), Res.ok_bind, drop_axis, get_at (v := e) (by rw [hr.dims, List.getElem?_append_right (Nat.le_refl _)]; simp), Res.ok_bind,
      show Res.need (decide (B.prod * e ≠ 0)) = .ok () by rw [decide_eq_true hz]; rfl, Res.ok_bind]
    simp only [hsup]
    rw [hr.re.above (by simp), Res.ok_bind, List.drop_left, List.prod_cons, hx.re.above (by simp), Res.ok_bind, List.drop_left, List.prod_cons,
      show Res.get x.strides A.length = _ from hx.re.stride (by simp), Res.ok_bind, drop_axis]
    exact w
  · split <;> rfl

/-! ### C487: transposes -/

/-- The transpose, or with `f` the change of sign its conjugate, is the matrix whose rows are the axes from `n` on and whose columns are the first `n` axes. -/
theorem ctransp (f : α → α) {x : CA} {A B : List Nat} {G : List Nat → Cx α} {m : Buf α} (hx : x.Is (A ++ B) G m) (hD : (A ++ B).prod ≠ 0) (junk : Nat → α) (q : Nat)
    (hf : Free m q (2 * cells [B.prod, A.prod])) :
    ∃ y m' H, transpWith f junk q x A.length m = .ok (y, m') ∧ y.Fresh q [B.prod, A.prod] H m m' ∧ x.Is (A ++ B) G m' ∧
      ∀ ia ib, InRange ia A → InRange ib B → H [position B ib, position A ia] = ⟨(G (ia ++ ib)).re, f (G (ia ++ ib)).im⟩ := by
  have hne : [B.prod, A.prod] ≠ [] := by simp
  have h0 := raw_is hne junk q m
  have hx0 := hx.old hf junk
  have ha := hx.apart_mk0 hf
  have hA : A.prod ≠ 0 := fun e => hD (by rw [List.prod_append, e, Nat.zero_mul])
  have hI : x.asize / A.prod = B.prod := by rw [hx.asize, List.prod_append, Nat.mul_comm]; exact Nat.mul_div_cancel _ (Nat.pos_of_ne_zero hA)
  obtain ⟨m', h1, h2⟩ := cpair (A := [B.prod]) (B := [A.prod]) h0
    (fun ix => ⟨(G (nth A (ix.getD 1 0) ++ nth B (ix.getD 0 0))).re, f (G (nth A (ix.getD 1 0) ++ nth B (ix.getD 0 0))).im⟩)
    (fun i j m => do
      let a ← m.read (x.arr + (j * B.prod + i))
      let m ← m.write ((mk0 q [B.prod, A.prod]).arr + (i * A.prod + j)) a
      let b ← m.read (x.arrc + (j * B.prod + i))
      m.write ((mk0 q [B.prod, A.prod]).arrc + (i * A.prod + j)) (f b)) (by
    intro ia a1 ib a2 m' hm k1 k2
    obtain ⟨i, l, h1, h2, rfl⟩ := List.forall₂_cons_right_iff.1 a1
    rw [List.forall₂_nil_right_iff] at h2
    subst h2
    obtain ⟨j, l, h3, h4, rfl⟩ := List.forall₂_cons_right_iff.1 a2
    rw [List.forall₂_nil_right_iff] at h4
    subst h4
    have ei : position [B.prod] [i] = i := by simp [position]
    have ej : position [A.prod] [j] = j := by simp [position]
    have hx' : x.Is (A ++ B) G m' := hx0.keep fun c hc => hm c fun k => ha c k hc
    have e1 := pair_at hx'.re h3 h1
    have e2 := pair_at hx'.im h3 h1
    have hin : j * B.prod + i < (A ++ B).prod := by rw [List.prod_append]; exact two_lt h3 h1
    have hin' : i * A.prod + j < [B.prod, A.prod].prod := by simp only [List.prod_cons, List.prod_nil, Nat.mul_one]; exact two_lt h1 h3
    have hne : x.arrc + (j * B.prod + i) ≠ (mk0 q [B.prod, A.prod]).arr + (i * A.prod + j) := fun e => ha _ (h0.owns hin').1 (e ▸ (hx.owns hin).2)
    simp only [ei, ej, List.prod_singleton] at k1 ⊢
    simp only [CA.re, CA.im] at e1 e2
    rw [read_ok e1, Res.ok_bind, setC]
    unfold Buf.write
    rw [k1]
    simp only [Res.ok_bind]
    rw [read_ok (a := (G (nth A j ++ nth B i)).im) (by rw [if_neg hne, e2])]
    rfl)
  simp only [List.prod_singleton] at h1
  refine ⟨mk0 q [B.prod, A.prod], m', _, ?_, fresh_of h2, hx0.stays h2 ha, fun ia ib a1 a2 => ?_⟩
  · rw [transpWith, combined_front hx.re hD, Res.ok_bind, show Res.need (decide (A.prod ≠ 0)) = .ok () by rw [decide_eq_true hA]; rfl, Res.ok_bind]
    simp only [hI]
    rw [raw_ok hne, Res.ok_bind]
    exact (congrArg (fun r : Res (Buf α) => r >>= fun m => Res.ok (mk0 q [B.prod, A.prod], m)) h1).trans rfl
  · show (⟨(G (nth A (position A ia) ++ nth B (position B ib))).re, f (G (nth A (position A ia) ++ nth B (position B ib))).im⟩ : Cx α) = _
    rw [nth_pos a1, nth_pos a2]

theorem C487_transp {x : CA} {A B : List Nat} {G : List Nat → Cx α} {m : Buf α} (hx : x.Is (A ++ B) G m) (hD : (A ++ B).prod ≠ 0) (junk : Nat → α) (q : Nat)
    (hf : Free m q (2 * cells [B.prod, A.prod])) :
    ∃ y m' H, transp junk q x A.length m = .ok (y, m') ∧ y.Fresh q [B.prod, A.prod] H m m' ∧ x.Is (A ++ B) G m' ∧
      ∀ ia ib, InRange ia A → InRange ib B → H [position B ib, position A ia] = G (ia ++ ib) := ctransp id hx hD junk q hf

/-- The conjugate transpose. -/
theorem C487_herm [Neg α] {x : CA} {A B : List Nat} {G : List Nat → Cx α} {m : Buf α} (hx : x.Is (A ++ B) G m) (hD : (A ++ B).prod ≠ 0) (junk : Nat → α) (q : Nat)
    (hf : Free m q (2 * cells [B.prod, A.prod])) :
    ∃ y m' H, herm junk q x A.length m = .ok (y, m') ∧ y.Fresh q [B.prod, A.prod] H m m' ∧ x.Is (A ++ B) G m' ∧
      ∀ ia ib, InRange ia A → InRange ib B → H [position B ib, position A ia] = ⟨(G (ia ++ ib)).re, -(G (ia ++ ib)).im⟩ := ctransp Neg.neg hx hD junk q hf

theorem caddTransp [Add α] (op : α → α → α) {r x : CA} {A B : List Nat} {F G : List Nat → Cx α} {m : Buf α} (hr : r.Is (B ++ A) F m) (hx : x.Is (A ++ B) G m)
    (hD : (A ++ B).prod ≠ 0) (ha : r.Apart x) :
    ∃ m', addTranspWith op r x A.length m = .ok m' ∧ r.Becomes (B ++ A)
      (fun ix => ⟨(F ix).re + (G (ix.drop B.length ++ ix.take B.length)).re, op (F ix).im (G (ix.drop B.length ++ ix.take B.length)).im⟩) m m' := by
  have hA : A.prod ≠ 0 := fun e => hD (by rw [List.prod_append, e, Nat.zero_mul])
  have hI : x.asize / A.prod = B.prod := by rw [hx.asize, List.prod_append, Nat.mul_comm]; exact Nat.mul_div_cancel _ (Nat.pos_of_ne_zero hA)
  obtain ⟨m', h1, h2⟩ := cpair hr
    (fun ix => ⟨(F ix).re + (G (ix.drop B.length ++ ix.take B.length)).re, op (F ix).im (G (ix.drop B.length ++ ix.take B.length)).im⟩)
    (fun i j m => updC (· + ·) op r x (i * A.prod + j) (j * B.prod + i) m) (by
    intro ib a1 ia a2 m' hm k1 k2
    have hx' : x.Is (A ++ B) G m' := hx.keep fun c hc => hm c fun k => ha c k hc
    have e1 := pair_at hx'.re (position_lt a2) (position_lt a1)
    have e2 := pair_at hx'.im (position_lt a2) (position_lt a1)
    rw [nth_pos a1, nth_pos a2] at e1 e2
    have i1 : position B ib * A.prod + position A ia < (B ++ A).prod := by rw [List.prod_append]; exact two_lt (position_lt a1) (position_lt a2)
    have i2 : position A ia * B.prod + position B ib < (A ++ B).prod := by rw [List.prod_append]; exact two_lt (position_lt a2) (position_lt a1)
    rw [updC_ok k1 k2 e1 e2 (fun e => ha _ (hr.owns i1).1 (e ▸ (hx.owns i2).2)) (hr.apart _ _ i1 i1).symm, ← a1.length, List.drop_left, List.take_left])
  refine ⟨m', ?_, h2⟩
  rw [addTranspWith, decide_eq_true (by rw [hr.asize, hx.asize]; simp [Nat.mul_comm]), Res.assrt_true, Res.ok_bind, combined_front hx.re hD, Res.ok_bind,
    show Res.need (decide (A.prod ≠ 0)) = .ok () by rw [decide_eq_true hA]; rfl, Res.ok_bind]
  simp only [hI]
  exact h1

/-- Adding a transpose. -/
theorem C487_addTransp [Add α] {r x : CA} {A B : List Nat} {F G : List Nat → Cx α} {m : Buf α} (hr : r.Is (B ++ A) F m) (hx : x.Is (A ++ B) G m)
    (hD : (A ++ B).prod ≠ 0) (ha : r.Apart x) :
    ∃ m', addTransp r x A.length m = .ok m' ∧ r.Becomes (B ++ A) (fun ix => F ix + G (ix.drop B.length ++ ix.take B.length)) m m' := caddTransp _ hr hx hD ha

/-- Adding a conjugate transpose. -/
theorem C487_addHerm [Ring α] {r x : CA} {A B : List Nat} {F G : List Nat → Cx α} {m : Buf α} (hr : r.Is (B ++ A) F m) (hx : x.Is (A ++ B) G m)
    (hD : (A ++ B).prod ≠ 0) (ha : r.Apart x) :
    ∃ m', addHerm r x A.length m = .ok m' ∧ r.Becomes (B ++ A)
      (fun ix => F ix + ⟨(G (ix.drop B.length ++ ix.take B.length)).re, -(G (ix.drop B.length ++ ix.take B.length)).im⟩) m m' := by
  obtain ⟨m', h1, h2⟩ := caddTransp (· - ·) hr hx hD ha
  exact ⟨m', h1, becomes_congr h2 fun ix _ => by simp only [Cx.add_def, sub_eq_add_neg]⟩

example : ∃ y m', herm (fun _ => (9 : Int)) 64 exMat 1 exMatM = .ok (y, m') ∧ y.dims = [3, 2] ∧ y.get [2, 1] m' = .ok ⟨5, -105⟩ ∧ y.get [2, 0] m' = .ok ⟨2, -102⟩ :=
  ⟨_, _, rfl, rfl, rfl, rfl⟩

/-- A tensor with no entries divides by zero. -/
theorem C488_empty_fails : ∃ x m', raw (fun _ => (9 : Int)) 0 [2, 0] (fun _ => none) = .ok (x, m') ∧ transp (fun _ => 9) 64 x 1 m' = .ub ∧ herm (fun _ => 9) 64 x 1 m' = .ub :=
  ⟨_, _, rfl, rfl, rfl⟩

/-- An index past the end is not noticed: the slice 3 of three. -/
theorem C488_slice_past_end_fails : ∃ y m', slice (fun _ => 9) 64 exMat 1 3 (fun c => if c < 64 then some (c : Int) else none) = .ok (y, m') ∧
    y.get [0] m' = .ok ⟨3, 35⟩ ∧ y.get [1] m' = .ok ⟨6, 38⟩ := ⟨_, _, rfl, rfl, rfl⟩

/-! ### C489: products -/

/-- The product of two numbers with, as `sel` says, one or both conjugated: 0 neither, 1 the first, 2 the second, 3 both. -/
def selMul [Ring α] (sel : Nat) (a b : Cx α) : Cx α :=
  (if sel = 1 ∨ sel = 3 then ⟨a.re, -a.im⟩ else a) * (if sel = 2 ∨ sel = 3 then ⟨b.re, -b.im⟩ else b)

theorem selAcc_eq [Ring α] {sel : Nat} (h : sel ≤ 3) (t a b : Cx α) : selAcc sel t a b = t + selMul sel a b := by
  have : sel = 0 ∨ sel = 1 ∨ sel = 2 ∨ sel = 3 := by omega
  rcases this with rfl | rfl | rfl | rfl <;>
    simp only [selAcc, selMul, Cx.add_def, Cx.mul_def, Nat.reduceEqDiff, or_self, or_true, true_or, or_false, false_or, if_true, if_false, neg_mul, mul_neg,
      sub_neg_eq_add, neg_neg, sub_eq_add_neg, neg_add, zero_ne_one, OfNat.zero_ne_ofNat, OfNat.one_ne_ofNat, OfNat.ofNat_ne_one]

/-- The loops of a product. -/
theorem cprod [Ring α] {sel : Nat} (hsel : sel ≤ 3) {r x y : CA} {A B C X Y : List Nat} {F G H : List Nat → Cx α} {m : Buf α} (hr : r.Is (A ++ B) F m) (hx : x.Is X G m) (hy : y.Is Y H m)
    (hax : r.Apart x) (hay : r.Apart y) (p q : Nat → Nat → Nat) (P Q : List Nat → List Nat → List Nat)
    (hp : ∀ ia ic, InRange ia A → InRange ic C → InRange (P ia ic) X ∧ p (position A ia) (position C ic) = position X (P ia ic))
    (hq : ∀ ic ib, InRange ic C → InRange ib B → InRange (Q ic ib) Y ∧ q (position C ic) (position B ib) = position Y (Q ic ib)) :
    ∃ m', mprodLoop sel r x y A.prod B.prod C.prod p q m = .ok m' ∧
      r.Becomes (A ++ B) (fun ix => F ix + ((allIndices C).map fun ic => selMul sel (G (P (ix.take A.length) ic)) (H (Q ic (ix.drop A.length)))).sum) m m' := by
  apply cpair hr (fun ix => F ix + ((allIndices C).map fun ic => selMul sel (G (P (ix.take A.length) ic)) (H (Q ic (ix.drop A.length)))).sum)
    (fun i j m => do
      let t ← loop C.prod (0 : Cx α) fun k t => do
        let a ← getC (x.arr + p i k) (x.arrc + p i k) m
        let b ← getC (y.arr + q k j) (y.arrc + q k j) m
        .ok (selAcc sel t a b)
      incC (r.arr + (i * B.prod + j)) (r.arrc + (i * B.prod + j)) t m)
  intro ia a1 ib a2 m' hm k1 k2
  have hx' : x.Is X G m' := hx.keep fun c hc => hm c fun k => hax c k hc
  have hy' : y.Is Y H m' := hy.keep fun c hc => hm c fun k => hay c k hc
  have i1 : position A ia * B.prod + position B ib < (A ++ B).prod := by rw [List.prod_append]; exact two_lt (position_lt a1) (position_lt a2)
  rw [sum_of (D := C) rfl (fun ic => selMul sel (G (P ia ic)) (H (Q ic ib))) _ fun ic h t => by
    obtain ⟨p1, p2⟩ := hp ia ic a1 h
    obtain ⟨q1, q2⟩ := hq ic ib h a2
    rw [p2, q2, getC_ok (hx'.has _ p1).1 (hx'.has _ p1).2, Res.ok_bind, getC_ok (hy'.has _ q1).1 (hy'.has _ q1).2, Res.ok_bind, selAcc_eq hsel]]
  rw [Res.ok_bind, incC_ok k1 k2 (hr.apart _ _ i1 i1), ← a1.length, List.take_left, List.drop_left]

theorem cempty [Ring α] {r : CA} {A B C : List Nat} {F : List Nat → Cx α} {m : Buf α} (hr : r.Is (A ++ B) F m) (K : List Nat → List Nat → Cx α)
    (h : A.prod * C.prod = 0 ∨ B.prod * C.prod = 0) : r.Becomes (A ++ B) (fun ix => F ix + ((allIndices C).map fun ic => K ix ic).sum) m m := by
  refine becomes_congr ⟨hr, fun _ _ => rfl⟩ fun ix hi => ?_
  have hp := position_lt hi
  rw [List.prod_append] at hp
  have hA : A.prod ≠ 0 := fun e => by rw [e, Nat.zero_mul] at hp; omega
  have hB : B.prod ≠ 0 := fun e => by rw [e, Nat.mul_zero] at hp; omega
  have hC : C.prod = 0 := by
    rcases h with h | h
    · exact (Nat.mul_eq_zero.1 h).resolve_left hA
    · exact (Nat.mul_eq_zero.1 h).resolve_left hB
  have : allIndices C = [] := List.length_eq_zero_iff.1 (by rw [allIndices_length, hC])
  rw [this]; simp

/-- `add_Mprod_AA`: the last axes of `x` against the first of `y`. -/
theorem C489_AA [Ring α] {sel : Nat} (hsel : sel ≤ 3) {r x y : CA} {A B C : List Nat} {F G H : List Nat → Cx α} {m : Buf α} (hr : r.Is (A ++ B) F m) (hx : x.Is (A ++ C) G m)
    (hy : y.Is (C ++ B) H m) (hax : r.Apart x) (hay : r.Apart y) :
    ∃ m', addMprodAA sel r x y C.length C.length m = .ok m' ∧
      r.Becomes (A ++ B) (fun ix => F ix + ((allIndices C).map fun ic => selMul sel (G (ix.take A.length ++ ic)) (H (ic ++ ix.drop A.length))).sum) m m' := by
  rw [addMprodAA, hx.asize, hy.asize]
  split
  · next e =>
    rw [List.prod_append, List.prod_append, Nat.mul_comm C.prod] at e
    exact ⟨m, rfl, cempty hr (fun ix ic => selMul sel (G (ix.take A.length ++ ic)) (H (ic ++ ix.drop A.length))) e⟩
  · next e =>
    rw [not_or] at e
    have hl : x.dims.length - C.length = A.length := by rw [hx.dims]; simp
    rw [decide_eq_true (by rw [hx.dims]; simp), Res.assrt_true, Res.ok_bind, hl, show x.re.combinedSize A.length x.dims.length = _ from combined_back hx.re e.1, Res.ok_bind,
      combined_front hy.re e.2, Res.ok_bind,
      decide_eq_true rfl, Res.assrt_true, Res.ok_bind, combined_front hx.re e.1, Res.ok_bind, show y.re.combinedSize C.length y.dims.length = _ from combined_back hy.re e.2, Res.ok_bind,
      decide_eq_true (by rw [hr.asize, List.prod_append]), Res.assrt_true, Res.ok_bind]
    have h0 : r.asize ≠ 0 := by
      rw [hr.asize, List.prod_append]
      intro e'
      rw [List.prod_append, List.prod_append] at e
      rcases Nat.mul_eq_zero.1 e' with z | z
      · exact e.1 (by rw [z, Nat.zero_mul])
      · exact e.2 (by rw [z, Nat.mul_zero])
    rw [if_neg h0]
    exact cprod hsel hr hx hy hax hay _ _ (fun ia ic => ia ++ ic) (fun ic ib => ic ++ ib)
      (fun ia ic a1 a2 => ⟨GT.inRange_app a1 a2, (GT.position_app a1.length).symm⟩) (fun ic ib a1 a2 => ⟨GT.inRange_app a1 a2, (GT.position_app a1.length).symm⟩)

/-- `add_Mprod_AT`: the last axes of both. -/
theorem C489_AT [Ring α] {sel : Nat} (hsel : sel ≤ 3) {r x y : CA} {A B C : List Nat} {F G H : List Nat → Cx α} {m : Buf α} (hr : r.Is (A ++ B) F m) (hx : x.Is (A ++ C) G m)
    (hy : y.Is (B ++ C) H m) (hax : r.Apart x) (hay : r.Apart y) :
    ∃ m', addMprodAT sel r x y C.length C.length m = .ok m' ∧
      r.Becomes (A ++ B) (fun ix => F ix + ((allIndices C).map fun ic => selMul sel (G (ix.take A.length ++ ic)) (H (ix.drop A.length ++ ic))).sum) m m' := by
  rw [addMprodAT, hx.asize, hy.asize]
  split
  · next e =>
    rw [List.prod_append, List.prod_append] at e
    exact ⟨m, rfl, cempty hr (fun ix ic => selMul sel (G (ix.take A.length ++ ic)) (H (ix.drop A.length ++ ic))) e⟩
  · next e =>
    rw [not_or] at e
    have hl : x.dims.length - C.length = A.length := by rw [hx.dims]; simp
    have hl' : y.dims.length - C.length = B.length := by rw [hy.dims]; simp
    rw [decide_eq_true (by rw [hx.dims]; simp), Res.assrt_true, Res.ok_bind, hl, show x.re.combinedSize A.length x.dims.length = _ from combined_back hx.re e.1, Res.ok_bind,
      decide_eq_true (by rw [hy.dims]; simp), Res.assrt_true, Res.ok_bind,
      hl', show y.re.combinedSize B.length y.dims.length = _ from combined_back hy.re e.2, Res.ok_bind,
      decide_eq_true rfl, Res.assrt_true, Res.ok_bind, combined_front hx.re e.1, Res.ok_bind, combined_front hy.re e.2, Res.ok_bind,
      decide_eq_true (by rw [hr.asize, List.prod_append]), Res.assrt_true, Res.ok_bind]
    have h0 : r.asize ≠ 0 := by
      rw [hr.asize, List.prod_append]
      intro e'
      rw [List.prod_append, List.prod_append] at e
      rcases Nat.mul_eq_zero.1 e' with z | z
      · exact e.1 (by rw [z, Nat.zero_mul])
      · exact e.2 (by rw [z, Nat.zero_mul])
    rw [if_neg h0]
    exact cprod hsel hr hx hy hax hay _ _ (fun ia ic => ia ++ ic) (fun ic ib => ib ++ ic)
      (fun ia ic a1 a2 => ⟨GT.inRange_app a1 a2, (GT.position_app a1.length).symm⟩) (fun ic ib a1 a2 => ⟨GT.inRange_app a2 a1, (GT.position_app a2.length).symm⟩)

/-- `add_Mprod_TA`: the first axes of both. -/
theorem C489_TA [Ring α] {sel : Nat} (hsel : sel ≤ 3) {r x y : CA} {A B C : List Nat} {F G H : List Nat → Cx α} {m : Buf α} (hr : r.Is (A ++ B) F m) (hx : x.Is (C ++ A) G m)
    (hy : y.Is (C ++ B) H m) (hax : r.Apart x) (hay : r.Apart y) :
    ∃ m', addMprodTA sel r x y C.length C.length m = .ok m' ∧
      r.Becomes (A ++ B) (fun ix => F ix + ((allIndices C).map fun ic => selMul sel (G (ic ++ ix.take A.length)) (H (ic ++ ix.drop A.length))).sum) m m' := by
  rw [addMprodTA, hx.asize, hy.asize]
  split
  · next e =>
    rw [List.prod_append, List.prod_append, Nat.mul_comm C.prod, Nat.mul_comm C.prod] at e
    exact ⟨m, rfl, cempty hr (fun ix ic => selMul sel (G (ic ++ ix.take A.length)) (H (ic ++ ix.drop A.length))) e⟩
  · next e =>
    rw [not_or] at e
    rw [combined_front hx.re e.1, Res.ok_bind, combined_front hy.re e.2, Res.ok_bind,
      decide_eq_true rfl, Res.assrt_true, Res.ok_bind, show x.re.combinedSize C.length x.dims.length = _ from combined_back hx.re e.1, Res.ok_bind,
      show y.re.combinedSize C.length y.dims.length = _ from combined_back hy.re e.2, Res.ok_bind,
      decide_eq_true (by rw [hr.asize, List.prod_append]), Res.assrt_true, Res.ok_bind]
    have h0 : r.asize ≠ 0 := by
      rw [hr.asize, List.prod_append]
      intro e'
      rw [List.prod_append, List.prod_append] at e
      rcases Nat.mul_eq_zero.1 e' with z | z
      · exact e.1 (by rw [z, Nat.mul_zero])
      · exact e.2 (by rw [z, Nat.mul_zero])
    rw [if_neg h0]
    exact cprod hsel hr hx hy hax hay _ _ (fun ia ic => ic ++ ia) (fun ic ib => ic ++ ib)
      (fun ia ic a1 a2 => ⟨GT.inRange_app a2 a1, (GT.position_app a2.length).symm⟩) (fun ic ib a1 a2 => ⟨GT.inRange_app a1 a2, (GT.position_app a1.length).symm⟩)

/-- One number: `(1+2i)` times the conjugate of `(3+4i)`, added to 10. -/
example : ∃ m', addMprodAT 2 (⟨0, 1, [1, 1], [1, 1], 1, 2, 1, -1, false⟩ : CA) ⟨2, 3, [1, 1], [1, 1], 1, 2, 1, -1, false⟩ ⟨4, 5, [1, 1], [1, 1], 1, 2, 1, -1, false⟩ 1 1
    (Buf.ofList [(10 : Int), 0, 1, 2, 3, 4]) = .ok m' ∧ m' 0 = some (10 + 11) ∧ m' 1 = some 2 := ⟨_, rfl, rfl, rfl⟩

end CA

end Cnine
