import Verif.Props.CtensorB

/-!
# C591–C598: complex tensors of backend B: operations, products, tensors of ATen
-/

namespace Cnine

variable {α : Type}

namespace CB

open RA (Free flat)

/-! ### C591: conjugates and transposes -/

theorem Is.last {x : CB} {D : List Nat} {F : List Nat → Cx α} {m : Buf α} (h : x.Is D F m) : Res.get x.strides (x.strides.length - 1) = .ok 2 := by
  have hl : 0 < D.length := List.length_pos_of_ne_nil h.ne
  rw [h.strides', rmStridesFrom_length, GT.strides_from, Res.get, List.getElem?_map, GT.strides_get (by omega)]
  simp [show D.length - 1 + 1 = D.length by omega]

theorem C591_conj_partial [Neg α] {x : CB} {D : List Nat} {G : List Nat → Cx α} {m : Buf α} (h : x.Is D G m) (junk : Nat → α) (q : Nat) (hf : Free m q (2 * D.prod)) :
    ∃ y m', conj junk q x m = .ok (y, m') ∧ y.Fresh q D (fun ix => ⟨(G ix).re, -(G ix).im⟩) m m' ∧ x.Is D G m' := by
  have hx0 := h.old hf junk
  have h0 := raw_is h.ne junk q false m
  have hap : (mk0 q D false).Apart x := h.apart_mk0 hf
  obtain ⟨m1, g1, g2⟩ := part_run h0 (o := 0) (by omega) (fun i => (flat D G ⟨junk 0, junk 0⟩ i).re) (fun i m => copyCell m (q + i * 2) (x.arr + i * 2)) (by
    intro i hi m' hm
    have e : m' (x.arr + i * 2) = some (flat D G ⟨junk 0, junk 0⟩ i).re := by
      rw [hm _ fun j hj _ e => hap (q + (2 * j + 0)) (h0.owns (by omega)) (e ▸ h.owns (by omega)), Nat.mul_comm i 2, (hx0.at _ hi).1]
    rw [copyCell, read_ok e, Res.ok_bind, Nat.mul_comm i 2]
    rfl)
  have hx1 := hx0.stays g2 hap
  obtain ⟨m2, k1, k2⟩ := part_run g2.1 (o := 1) (by omega) (fun i => -(flat D G ⟨junk 0, junk 0⟩ i).im)
    (fun i m => m.read (x.arr + (i * 2 + 1)) >>= fun b => m.write (q + (i * 2 + 1)) (-b)) (by
    intro i hi m' hm
    have e : m' (x.arr + (i * 2 + 1)) = some (flat D G ⟨junk 0, junk 0⟩ i).im := by
      rw [hm _ fun j hj _ e => hap (q + (2 * j + 1)) (h0.owns (by omega)) (e ▸ h.owns (by omega)), Nat.mul_comm i 2, (hx1.at _ hi).2]
    rw [read_ok e, Res.ok_bind, Nat.mul_comm i 2]
    rfl)
  refine ⟨_, m2, ?_, fresh_of (junk := junk) ⟨k2.1.mk' fun ix hi => ?_, fun c hc => by rw [k2.2 c hc, g2.2 c hc]⟩, hx1.stays k2 hap⟩
  · rw [conj, h.dims, raw_ok h.ne, Res.ok_bind]
    simp only
    rw [h.last, Res.ok_bind, h.asize, h.coffs]
    show (loop D.prod _ (fun i m => copyCell m (q + i * 2) (x.arr + i * 2)) >>= fun m => loop D.prod m (fun i m => m.read (x.arr + (i * 2 + 1)) >>= fun b => m.write (q + (i * 2 + 1)) (-b)) >>= fun m =>
      Res.ok (mk0 q D false, m)) = _
    rw [g1, Res.ok_bind, k1, Res.ok_bind]
  · have := k2.1.has ix hi
    simp only [RA.flat_pos hi, if_pos, if_neg (show ¬ (1 : Nat) = 0 by omega)] at this
    exact this

/-- On the GPU the real parts change sign instead. -/
theorem C591_conjG_fails [Neg α] {x : CB} {D : List Nat} {G : List Nat → Cx α} {m : Buf α} (h : x.Is D G m) (junk : Nat → α) (q : Nat) (hf : Free m q (2 * D.prod)) :
    ∃ y m', conjG junk q x m = .ok (y, m') ∧ y.Fresh q D (fun ix => ⟨-(G ix).re, (G ix).im⟩) m m' := by
  obtain ⟨y, m1, h1, h2, h3, h4⟩ := C587_copy_partial h junk q hf
  obtain ⟨m2, g1, g2⟩ := part_run h2.2.2.1 (o := 0) (by omega) (fun i => -(flat D G ⟨junk 0, junk 0⟩ i).re) (fun i m => m.read (y.arr + i * 2) >>= fun b => m.write (y.arr + i * 2) (-b)) (by
    intro i hi m' hm
    have e : m' (y.arr + i * 2) = some (flat D G ⟨junk 0, junk 0⟩ i).re := by
      rw [hm _ fun j hj _ e => by omega, Nat.mul_comm i 2, (h2.2.2.1.at _ hi).1]
    rw [read_ok e, Res.ok_bind, Nat.mul_comm i 2]
    rfl)
  refine ⟨y, m2, ?_, h2.1, h2.2.1, g2.1.mk' fun ix hi => ?_, fun c hc => ?_⟩
  · rw [conjG, h1, Res.ok_bind, h.asize]
    show (loop D.prod m1 (fun i m => m.read (y.arr + i * 2) >>= fun b => m.write (y.arr + i * 2) (-b)) >>= fun m => Res.ok (y, m)) = _
    rw [g1, Res.ok_bind]
  · have := g2.1.has ix hi
    simp only [RA.flat_pos hi, if_pos] at this
    exact this
  · rw [g2.2 c fun k => hc ⟨h2.1 ▸ k.1, by have := k.2; rw [h2.1, h2.2.2.1.asize] at this; exact this⟩, h2.2.2.2 c hc]

/-- The conjugate of `1`, on the GPU, is `-1`. -/
theorem C591_conjG_one_fails : ∃ y m', conjG (fun _ => (9 : Int)) 10 ⟨0, [1], [2], 1, 2, 1, false⟩ (fun c => if c = 0 then some 1 else if c = 1 then some 0 else none) = .ok (y, m') ∧
    y.get [0] m' = .ok ⟨-1, 0⟩ := ⟨_, _, rfl, rfl⟩

/-- The transpose of the row `(1+2i, 3+4i)` is the row itself. -/
theorem C591_transp_fails : ∃ y m', transp (fun _ => (9 : Int)) 10 20 ⟨0, [1, 2], [4, 2], 2, 4, 1, false⟩ (fun c => if c < 4 then some (c + 1 : Int) else none) = .ok (y, m') ∧
    y.dims = [1, 2] ∧ y.get [0, 0] m' = .ok ⟨1, 2⟩ ∧ y.get [0, 1] m' = .ok ⟨3, 4⟩ := ⟨_, _, rfl, rfl, rfl, rfl⟩

example : ∃ y m', conj (fun _ => (9 : Int)) 10 ⟨0, [2], [2], 2, 4, 1, false⟩ (fun c => if c < 4 then some (c + 1 : Int) else none) = .ok (y, m') ∧ y.get [1] m' = .ok ⟨3, -4⟩ := ⟨_, _, rfl, rfl⟩

/-! ### C592: cell by cell -/

/-- The second tensor may be the tensor itself. -/
theorem C592_add_partial [Add α] {r x : CB} {D : List Nat} {F G : List Nat → Cx α} {m : Buf α} (hr : r.Is D F m) (hx : x.Is D G m) (ha : r.Apart x ∨ r.arr = x.arr) :
    ∃ m', add r x m = .ok m' ∧ r.Becomes D (fun ix => F ix + G ix) m m' := by
  obtain ⟨m', h1, h2⟩ := zipMem_ok (· + ·) hr hx ha
  exact ⟨m', by rw [add, decide_eq_true (by rw [hr.asize, hx.asize]), Res.assrt_true, Res.ok_bind, h1], h2⟩

theorem C592_subtract_partial [Sub α] {r x : CB} {D : List Nat} {F G : List Nat → Cx α} {m : Buf α} (hr : r.Is D F m) (hx : x.Is D G m) (ha : r.Apart x ∨ r.arr = x.arr) :
    ∃ m', subtract r x m = .ok m' ∧ r.Becomes D (fun ix => ⟨(F ix).re - (G ix).re, (F ix).im - (G ix).im⟩) m m' := by
  obtain ⟨m', h1, h2⟩ := zipMem_ok (· - ·) hr hx ha
  exact ⟨m', by rw [subtract, decide_eq_true (by rw [hr.asize, hx.asize]), Res.assrt_true, Res.ok_bind, h1], h2⟩

/-- A multiple by a real number. -/
theorem C592_addScaled_partial [Add α] [Mul α] {r x : CB} {D : List Nat} {F G : List Nat → Cx α} {m : Buf α} (hr : r.Is D F m) (hx : x.Is D G m) (ha : r.Apart x ∨ r.arr = x.arr)
    (c : α) : ∃ m', addScaled r x c m = .ok m' ∧ r.Becomes D (fun ix => ⟨(F ix).re + (G ix).re * c, (F ix).im + (G ix).im * c⟩) m m' := zipMem_ok _ hr hx ha

theorem C592_sizes_partial [Add α] [Sub α] {r x : CB} {D E : List Nat} {F G : List Nat → Cx α} {m : Buf α} (hr : r.Is D F m) (hx : x.Is E G m) (he : D.prod ≠ E.prod) :
    add r x m = .throw ∧ subtract r x m = .throw := by
  rw [add, subtract, decide_eq_false (by rw [hr.asize, hx.asize]; exact he)]
  exact ⟨rfl, rfl⟩

/-- Adding a complex multiple does nothing at all. -/
theorem C592_addC_fails {r x : CB} {D : List Nat} {F G : List Nat → Cx α} {m : Buf α} (hr : r.Is D F m) (hx : x.Is D G m) (c : Cx α) : addC r x c m = .ok m := by
  rw [addC, decide_eq_true (by rw [hr.asize, hx.asize]), Res.assrt_true, Res.ok_bind]

/-- `0 += 1·1` stays 0. -/
theorem C592_addC_entry_fails : ∃ m', addC (⟨0, [1], [2], 1, 2, 1, false⟩ : CB) ⟨2, [1], [2], 1, 2, 1, false⟩ (⟨1, 0⟩ : Cx Int)
    (fun c => if c = 2 then some 1 else if c < 4 then some 0 else none) = .ok m' ∧ m' 0 = some 0 := ⟨_, rfl, rfl⟩

theorem C592_set_partial {r x : CB} {D : List Nat} {F G : List Nat → Cx α} {m : Buf α} (hr : r.Is D F m) (hx : x.Is D G m) (ha : r.Apart x) :
    ∃ m', setT r x m = .ok m' ∧ r.Becomes D G m m' := by
  by_cases hD : D.prod = 0
  · refine ⟨m, by rw [setT, hr.memsize, hD, stdCopy, if_neg (by omega)]; rfl, hr.mk' fun ix hi => ?_, fun _ _ => rfl⟩
    have := position_lt hi
    omega
  obtain ⟨ix0, _, _⟩ := GT.surj (dims := D) (i := 0) (by omega)
  obtain ⟨m', h1, h2, h3⟩ := stdCopy_ok m x.arr (2 * D.prod) r.arr (part D G (G ix0)) (fun i hi => hr.some_at hi) (fun i hi => hx.part_at _ hi)
    (fun i hi j hj e => ha _ (hr.owns hi) (e ▸ hx.owns hj))
  refine ⟨m', by rw [setT, hr.memsize, h1], hr.mk' fun ix hi => ?_, fun c hc => h3 c fun i hi => hr.not_owns hc hi⟩
  have := position_lt hi
  rw [h2 _ (by omega), h2 _ (by omega), part_re, part_im, RA.flat_pos hi]
  exact ⟨rfl, rfl⟩

theorem C592_setZero_partial [Zero α] {r : CB} {D : List Nat} {F : List Nat → Cx α} {m : Buf α} (hr : r.Is D F m) :
    ∃ m', setZero r m = .ok m' ∧ r.Becomes D (fun _ => ⟨0, 0⟩) m m' := by
  obtain ⟨m', h1, h2⟩ := mem_run hr (fun _ => 0) (fun i m => m.write (r.arr + i) 0) fun _ _ _ _ => rfl
  exact ⟨m', by rw [setZero, fillMem, hr.memsize, h1], h2⟩

theorem Fresh.apart {x y : CB} {q : Nat} {D E : List Nat} {F G : List Nat → Cx α} {m m' : Buf α} (h : y.Fresh q D F m m') (hx : x.Is E G m) (hf : Free m q (2 * D.prod)) :
    y.Apart x := fun c hc ho => hx.not_free hf ho ⟨h.1 ▸ hc.1, by have := hc.2; rw [h.1, h.2.2.1.asize] at this; exact this⟩

theorem Fresh.keeps {x y : CB} {q : Nat} {D E : List Nat} {F G : List Nat → Cx α} {m m' : Buf α} (h : y.Fresh q D F m m') (hx : x.Is E G m) (hf : Free m q (2 * D.prod)) :
    x.Is E G m' := hx.keep fun c hc => h.2.2.2 c (hx.not_free hf hc)

theorem Fresh.then {y : CB} {q : Nat} {D : List Nat} {F G : List Nat → Cx α} {m m' m'' : Buf α} (h : y.Fresh q D F m m') (hb : y.Becomes D G m' m'') : y.Fresh q D G m m'' :=
  ⟨h.1, h.2.1, hb.1, fun c hc => by
    rw [hb.2 c fun k => hc ⟨h.1 ▸ k.1, by have := k.2; rw [h.1, h.2.2.1.asize] at this; exact this⟩, h.2.2.2 c hc]⟩

/-- `x+y`. -/
theorem C592_plus_partial [Add α] {x y : CB} {D : List Nat} {F G : List Nat → Cx α} {m : Buf α} (hx : x.Is D F m) (hy : y.Is D G m) (junk : Nat → α) (q : Nat)
    (hf : Free m q (2 * D.prod)) : ∃ z m', plus junk q x y m = .ok (z, m') ∧ z.Fresh q D (fun ix => F ix + G ix) m m' := by
  obtain ⟨z, m1, h1, h2, _, _⟩ := C587_copy_partial hx junk q hf
  obtain ⟨m2, g1, g2⟩ := C592_add_partial h2.2.2.1 (h2.keeps hy hf) (.inl (h2.apart hy hf))
  refine ⟨z, m2, ?_, h2.then g2⟩
  rw [plus, h1, Res.ok_bind]
  show (add z y m1 >>= fun m => Res.ok (z, m)) = _
  rw [g1, Res.ok_bind]

/-- `x-y`. -/
theorem C592_minus_partial [Sub α] {x y : CB} {D : List Nat} {F G : List Nat → Cx α} {m : Buf α} (hx : x.Is D F m) (hy : y.Is D G m) (junk : Nat → α) (q : Nat)
    (hf : Free m q (2 * D.prod)) : ∃ z m', minus junk q x y m = .ok (z, m') ∧ z.Fresh q D (fun ix => ⟨(F ix).re - (G ix).re, (F ix).im - (G ix).im⟩) m m' := by
  obtain ⟨z, m1, h1, h2, _, _⟩ := C587_copy_partial hx junk q hf
  obtain ⟨m2, g1, g2⟩ := C592_subtract_partial h2.2.2.1 (h2.keeps hy hf) (.inl (h2.apart hy hf))
  refine ⟨z, m2, ?_, h2.then g2⟩
  rw [minus, h1, Res.ok_bind]
  show (subtract z y m1 >>= fun m => Res.ok (z, m)) = _
  rw [g1, Res.ok_bind]

example : ∃ m', add (⟨0, [2], [2], 2, 4, 1, false⟩ : CB) ⟨4, [2], [2], 2, 4, 1, false⟩ (fun c => if c < 8 then some (c : Int) else none) = .ok m' ∧ m' 3 = some 10 ∧ m' 4 = some 4 :=
  ⟨_, rfl, rfl, rfl⟩

/-! ### C593: adding conjugates -/

theorem zipParts_ok (op op' : α → α → α) {r x : CB} {D : List Nat} {F G : List Nat → Cx α} {m : Buf α} (hr : r.Is D F m) (hx : x.Is D G m) (ha : r.Apart x ∨ r.arr = x.arr) :
    ∃ m', zipParts op op' r x m = .ok m' ∧ r.Becomes D (fun ix => ⟨op (F ix).re (G ix).re, op' (F ix).im (G ix).im⟩) m m' := by
  by_cases hD : D.prod = 0
  · refine ⟨m, by rw [zipParts, hr.asize, hD]; rfl, hr.mk' fun ix hi => ?_, fun _ _ => rfl⟩
    have := position_lt hi
    omega
  obtain ⟨ix0, _, _⟩ := GT.surj (dims := D) (i := 0) (by omega)
  have far : ∀ {o i j : Nat}, o < 2 → i < D.prod → j < D.prod → j ≠ i → x.arr + (i * 2 + o) ≠ r.arr + (2 * j + o) := fun {o i j} ho hi hj hne e => by
    rcases ha with ha | ha
    · exact ha _ (hr.owns (c := 2 * j + o) (by omega)) (e ▸ hx.owns (by omega))
    · omega
  obtain ⟨m1, g1, g2⟩ := part_run hr (o := 0) (by omega) (fun i => op (flat D F (F ix0) i).re (flat D G (G ix0) i).re) (fun i m => updCell op m (r.arr + i * 2) (x.arr + i * 2)) (by
    intro i hi m' hm
    have e1 : m' (r.arr + i * 2) = some (flat D F (F ix0) i).re := by
      rw [hm _ fun j hj _ e => by omega, Nat.mul_comm i 2, (hr.at _ hi).1]
    have e2 : m' (x.arr + i * 2) = some (flat D G (G ix0) i).re := by
      rw [hm (x.arr + i * 2) fun j hj hne e => far (o := 0) (by omega) hi hj hne e, Nat.mul_comm i 2, (hx.at _ hi).1]
    rw [updCell_ok e1 e2, Nat.mul_comm i 2]
    rfl)
  have hx1 : ∀ i, i < D.prod → m1 (x.arr + (i * 2 + 1)) = some (flat D G (G ix0) i).im := fun i hi => by
    rcases ha with ha | ha
    · rw [Nat.mul_comm i 2]; exact ((hx.stays g2 ha).at _ hi).2
    · obtain ⟨jx, hj, rfl⟩ := GT.surj hi
      have e1 := (g2.1.has jx hj).2
      simp only [if_pos] at e1
      have e2 := (hr.has jx hj).2
      have e3 := (hx.has jx hj).2
      rw [← ha, e2] at e3
      rw [← ha, RA.flat_pos hj, Nat.mul_comm _ 2, e1, e3]
  obtain ⟨m2, k1, k2⟩ := part_run g2.1 (o := 1) (by omega) (fun i => op' (flat D F (F ix0) i).im (flat D G (G ix0) i).im)
    (fun i m => updCell op' m (r.arr + (i * 2 + 1)) (x.arr + (i * 2 + 1))) (by
    intro i hi m' hm
    have e1 : m' (r.arr + (i * 2 + 1)) = some (flat D F (F ix0) i).im := by
      rw [hm _ fun j hj _ e => by omega, Nat.mul_comm i 2]
      obtain ⟨jx, hj, rfl⟩ := GT.surj hi
      have e1 := (g2.1.has jx hj).2
      simp only [if_pos] at e1
      rw [RA.flat_pos hj, e1]
    have e2 : m' (x.arr + (i * 2 + 1)) = some (flat D G (G ix0) i).im := by
      rw [hm _ fun j hj hne e => far (o := 1) (by omega) hi hj hne e, hx1 i hi]
    rw [updCell_ok e1 e2, Nat.mul_comm i 2])
  refine ⟨m2, ?_, k2.1.mk' fun ix hi => ?_, fun c hc => by rw [k2.2 c hc, g2.2 c hc]⟩
  · rw [zipParts, hr.asize, g1, Res.ok_bind, k1]
  · have := k2.1.has ix hi
    simp only [RA.flat_pos hi, if_pos, if_neg (show ¬ (1 : Nat) = 0 by omega)] at this
    exact this

theorem C593_addConj [Add α] [Sub α] {r x : CB} {D : List Nat} {F G : List Nat → Cx α} {m : Buf α} (hr : r.Is D F m) (hx : x.Is D G m) (ha : r.Apart x ∨ r.arr = x.arr) :
    ∃ m', addConj r x m = .ok m' ∧ r.Becomes D (fun ix => ⟨(F ix).re + (G ix).re, (F ix).im - (G ix).im⟩) m m' := zipParts_ok _ _ hr hx ha

theorem C593_addConjS [Add α] [Sub α] [Mul α] {r x : CB} {D : List Nat} {F G : List Nat → Cx α} {m : Buf α} (hr : r.Is D F m) (hx : x.Is D G m)
    (ha : r.Apart x ∨ r.arr = x.arr) (v : α) :
    ∃ m', addConjS r x v m = .ok m' ∧ r.Becomes D (fun ix => ⟨(F ix).re + v * (G ix).re, (F ix).im - v * (G ix).im⟩) m m' := zipParts_ok _ _ hr hx ha

/-- The conjugate times a complex number. -/
theorem C593_addConjC [Ring α] {r x : CB} {D : List Nat} {F G : List Nat → Cx α} {m : Buf α} (hr : r.Is D F m) (hx : x.Is D G m) (ha : r.Apart x ∨ r.arr = x.arr) (v : Cx α) :
    ∃ m', addConjC r x v m = .ok m' ∧
      r.Becomes D (fun ix => ⟨(F ix).re + ((G ix).re * v.re + (G ix).im * v.im), (F ix).im + ((G ix).re * v.im - (G ix).im * v.re)⟩) m m' := by
  obtain ⟨m', h1, h2⟩ := all_run hr (fun i => flat D F 0 i + (flat D G 0 i).conj * v)
    (fun i m => getC (x.arr + 2 * i) (x.arr + (2 * i + 1)) m >>= fun a => incC (r.arr + 2 * i) (r.arr + (2 * i + 1)) (a.conj * v) m) (by
    intro i hi m' hm
    have far : ∀ {o j : Nat}, o < 2 → j < D.prod → j ≠ i → x.arr + (2 * i + o) ≠ r.arr + 2 * j ∧ x.arr + (2 * i + o) ≠ r.arr + (2 * j + 1) := fun {o j} ho hj hne => by
      rcases ha with ha | ha
      · exact ⟨fun e => ha _ (hr.owns (c := 2 * j) (by omega)) (e ▸ hx.owns (by omega)), fun e => ha _ (hr.owns (c := 2 * j + 1) (by omega)) (e ▸ hx.owns (by omega))⟩
      · omega
    have e1 : m' (x.arr + 2 * i) = some (flat D G 0 i).re := by rw [hm (x.arr + 2 * i) fun j hj hne => far (o := 0) (by omega) hj hne, (hx.at _ hi).1]
    have e2 : m' (x.arr + (2 * i + 1)) = some (flat D G 0 i).im := by rw [hm _ fun j hj hne => far (o := 1) (by omega) hj hne, (hx.at _ hi).2]
    have e3 : m' (r.arr + 2 * i) = some (flat D F 0 i).re := by rw [hm _ fun j hj hne => by omega, (hr.at _ hi).1]
    have e4 : m' (r.arr + (2 * i + 1)) = some (flat D F 0 i).im := by rw [hm _ fun j hj hne => by omega, (hr.at _ hi).2]
    rw [getC_ok e1 e2, Res.ok_bind, incC_ok e3 e4 (by omega)])
  refine ⟨m', by rw [addConjC, hr.asize]; exact h1, becomes_congr h2 fun ix hi => ?_⟩
  rw [RA.flat_pos hi, RA.flat_pos hi]
  show (⟨(F ix).re + ((G ix).re * v.re - -(G ix).im * v.im), (F ix).im + ((G ix).re * v.im + -(G ix).im * v.re)⟩ : Cx α) = _
  rw [neg_mul, neg_mul, sub_neg_eq_add, ← sub_eq_add_neg]

example : ∃ m', addConjC (⟨0, [1], [2], 1, 2, 1, false⟩ : CB) ⟨2, [1], [2], 1, 2, 1, false⟩ (⟨10, 100⟩ : Cx Int) (fun c => if c < 4 then some (c + 1 : Int) else none) = .ok m' ∧
    m' 0 = some (1 + (30 + 400)) ∧ m' 1 = some (2 + (300 - 40)) := ⟨_, rfl, rfl, rfl⟩

/-! ### C594: quotients -/

/-- Whatever the division of complex numbers is, the result has the quotients of the real parts and of the imaginary parts. -/
theorem C594_div_partial [Zero α] [Div α] (cdiv : Cx α → Cx α → Cx α) {x y : CB} {D : List Nat} {F G : List Nat → Cx α} {m : Buf α} (hx : x.Is D F m) (hy : y.Is D G m)
    (junk : Nat → α) (q : Nat) (hf : Free m q (2 * D.prod)) :
    ∃ z m', div cdiv junk q x y m = .ok (z, m') ∧ z.Fresh q D (fun ix => ⟨(F ix).re / (G ix).re, (F ix).im / (G ix).im⟩) m m' := by
  obtain ⟨m1, h1, h2⟩ := zero_ok hx.ne junk q m
  have hax : (mk0 q D false).Apart x := hx.apart_mk0 hf
  have hay : (mk0 q D false).Apart y := hy.apart_mk0 hf
  have hx1 := (hx.old hf junk).stays h2 hax
  have hy1 := (hy.old hf junk).stays h2 hay
  have far : ∀ {z : CB} {K : List Nat → Cx α} {m : Buf α}, z.Is D K m → (mk0 q D false).Apart z → ∀ {i j : Nat}, i < 2 * D.prod → j < 2 * D.prod → z.arr + i ≠ q + j :=
    fun {_ _ _} hz ha {_ j} hi hj e => ha (q + j) (h2.1.owns hj) (e ▸ hz.owns hi)
  obtain ⟨m2, g1, g2⟩ := all_run h2.1 (fun i => cdiv (flat D F 0 i) (flat D G 0 i))
    (fun i m => getC (x.arr + i * 2) (x.arr + (i * 2 + 1)) m >>= fun a => getC (y.arr + i * 2) (y.arr + (i * 2 + 1)) m >>= fun b => setC (q + i * 2) (q + (i * 2 + 1)) (cdiv a b) m) (by
    intro i hi m' hm
    have get : ∀ {z : CB} {K : List Nat → Cx α}, z.Is D K m1 → (mk0 q D false).Apart z → getC (z.arr + i * 2) (z.arr + (i * 2 + 1)) m' = .ok (flat D K 0 i) := fun hz ha => by
      rw [Nat.mul_comm i 2]
      refine getC_ok ?_ ?_
      · rw [hm _ fun j hj hne => ⟨far hz ha (by omega) (by omega), far hz ha (by omega) (by omega)⟩, (hz.at _ hi).1]
      · rw [hm _ fun j hj hne => ⟨far hz ha (by omega) (by omega), far hz ha (by omega) (by omega)⟩, (hz.at _ hi).2]
    rw [get hx1 hax, Res.ok_bind, get hy1 hay, Res.ok_bind, Nat.mul_comm i 2]
    rfl)
  have hx2 := hx1.stays g2 hax
  have hy2 := hy1.stays g2 hay
  obtain ⟨m3, k1, k2⟩ := mem_run g2.1 (fun i => part D F 0 i / part D G 0 i) (fun i m => m.read (x.arr + i) >>= fun a => m.read (y.arr + i) >>= fun b => m.write (q + i) (a / b)) (by
    intro i hi m' hm
    have e1 : m' (x.arr + i) = some (part D F 0 i) := by rw [hm _ fun j hj hne => far hx2 hax hi hj, hx2.part_at _ hi]
    have e2 : m' (y.arr + i) = some (part D G 0 i) := by rw [hm _ fun j hj hne => far hy2 hay hi hj, hy2.part_at _ hi]
    rw [read_ok e1, Res.ok_bind, read_ok e2, Res.ok_bind]
    rfl)
  refine ⟨_, m3, ?_, fresh_of (junk := junk) ⟨k2.1.mk' fun ix hi => ?_, fun c hc => by rw [k2.2 c hc, g2.2 c hc, h2.2 c hc]⟩⟩
  · rw [div, decide_eq_true (by rw [hx.memsize, hy.memsize]), Res.assrt_true, Res.ok_bind, hx.dims, h1, Res.ok_bind, hx.asize, hx.memsize, hx.coffs]
    exact (congrArg (fun r : Res (Buf α) => r >>= fun m => loop (2 * D.prod) m (fun i m => m.read (x.arr + i) >>= fun a => m.read (y.arr + i) >>= fun b => m.write (q + i) (a / b)) >>= fun m =>
      Res.ok (mk0 q D false, m)) g1).trans ((congrArg (fun r : Res (Buf α) => r >>= fun m => Res.ok (mk0 q D false, m)) k1).trans rfl)
  · have := k2.1.has ix hi
    simp only [part_re, part_im, RA.flat_pos hi] at this
    exact this

/-- `(1+2i)/(1+i)` comes out as `1+2i`; multiplied by `1+i` this gives `-1+3i`. -/
theorem C594_div_fails (cdiv : Cx Int → Cx Int → Cx Int) : ∃ z m', div cdiv (fun _ => 9) 10 (⟨0, [1], [2], 1, 2, 1, false⟩ : CB) ⟨2, [1], [2], 1, 2, 1, false⟩
    (fun c => if c = 1 then some 2 else if c < 4 then some 1 else none) = .ok (z, m') ∧ z.get [0] m' = .ok ⟨1, 2⟩ ∧ (⟨1, 2⟩ * ⟨1, 1⟩ : Cx Int) ≠ ⟨1, 2⟩ :=
  ⟨_, _, rfl, rfl, by decide⟩

/-! ### C595: inner products and norms -/

/-- Sums over positions and over entries. -/
theorem range_flat {β : Type} [Zero β] [Add β] (D : List Nat) (g : Nat → β) (G : List Nat → β) (h : ∀ ix, InRange ix D → g (position D ix) = G ix) :
    ((List.range D.prod).map g).sum = ((allIndices D).map G).sum := by
  rw [← map_position_allIndices, List.map_map]
  congr 1
  exact List.map_congr_left fun ix hi => h ix (mem_allIndices.1 hi)

theorem sum_two [AddCommMonoid α] (n : Nat) (g : Nat → α) : ((List.range (2 * n)).map g).sum = ((List.range n).map fun i => g (2 * i) + g (2 * i + 1)).sum := by
  induction n with
  | zero => rfl
  | succ n ih =>
    rw [show 2 * (n + 1) = 2 * n + 1 + 1 by omega, List.range_succ, List.range_succ, List.range_succ]
    simp only [List.map_append, List.sum_append, List.map_cons, List.map_nil, List.sum_cons, List.sum_nil, add_zero, ih]
    rw [add_assoc]

/-- The sum of the products; neither factor is conjugated. -/
theorem C595_inp_partial [Ring α] {x y : CB} {D : List Nat} {F G : List Nat → Cx α} {m : Buf α} (hx : x.Is D F m) (hy : y.Is D G m) :
    inp x y m = .ok ((allIndices D).map fun ix => F ix * G ix).sum := by
  rw [inp, hx.asize, csum_ok D.prod _ m (fun i => flat D F 0 i * flat D G 0 i) fun i hi => by rw [hx.get_at 0 hi, Res.ok_bind, hy.get_at 0 hi, Res.ok_bind]]
  rw [range_flat D _ (fun ix => F ix * G ix) fun ix hi => by rw [RA.flat_pos hi, RA.flat_pos hi]]

theorem C595_addInpInto_partial [Ring α] {x y : CB} {D : List Nat} {F G : List Nat → Cx α} {m : Buf α} (hx : x.Is D F m) (hy : y.Is D G m) (r : Cx α) :
    addInpInto x r y m = .ok (r + ((allIndices D).map fun ix => F ix * G ix).sum) := by
  rw [addInpInto, C595_inp_partial hx hy, Res.ok_bind]

theorem C595_norm2_partial [Ring α] {x : CB} {D : List Nat} {F : List Nat → Cx α} {m : Buf α} (hx : x.Is D F m) :
    norm2 x m = .ok ((allIndices D).map fun ix => (F ix).re * (F ix).re + (F ix).im * (F ix).im).sum := by
  rw [norm2, hx.memsize, RA.sum_run (2 * D.prod) m (fun i => part D F 0 i * part D F 0 i) _ fun i hi t => by rw [read_ok (hx.part_at 0 hi), Res.ok_bind], sum_two]
  rw [range_flat D _ (fun ix => (F ix).re * (F ix).re + (F ix).im * (F ix).im) fun ix hi => by rw [part_re, part_im, RA.flat_pos hi]]

theorem C595_diff2_partial [Ring α] {x y : CB} {D : List Nat} {F G : List Nat → Cx α} {m : Buf α} (hx : x.Is D F m) (hy : y.Is D G m) :
    diff2 x y m = .ok ((allIndices D).map fun ix => ((F ix).re - (G ix).re) * ((F ix).re - (G ix).re) + ((F ix).im - (G ix).im) * ((F ix).im - (G ix).im)).sum := by
  rw [diff2, hx.memsize, RA.sum_run (2 * D.prod) m (fun i => (part D F 0 i - part D G 0 i) * (part D F 0 i - part D G 0 i)) _ fun i hi t => by
    rw [read_ok (hx.part_at 0 hi), Res.ok_bind, read_ok (hy.part_at 0 hi), Res.ok_bind], sum_two]
  rw [range_flat D _ (fun ix => ((F ix).re - (G ix).re) * ((F ix).re - (G ix).re) + ((F ix).im - (G ix).im) * ((F ix).im - (G ix).im)) fun ix hi => by
    rw [part_re, part_im, part_re, part_im, RA.flat_pos hi, RA.flat_pos hi]]

/-- `add_norm2_into` adds the sum of the squares, not of the squares of the absolute values. -/
theorem C595_addNorm2_partial [Ring α] {x : CB} {D : List Nat} {F : List Nat → Cx α} {m : Buf α} (hx : x.Is D F m) (r : Cx α) :
    addNorm2Into x r m = .ok (r + ((allIndices D).map fun ix => F ix * F ix).sum) := by
  rw [addNorm2Into, C595_inp_partial hx hx, Res.ok_bind]

/-- For the number `i`: `norm2()` is 1, and `add_norm2_into` adds -1. -/
theorem C595_addNorm2_fails : addNorm2Into (⟨0, [1], [2], 1, 2, 1, false⟩ : CB) (⟨0, 0⟩ : Cx Int) (fun c => if c = 0 then some 0 else if c = 1 then some 1 else none) = .ok ⟨-1, 0⟩ ∧
    norm2 (⟨0, [1], [2], 1, 2, 1, false⟩ : CB) (fun c => if c = 0 then some 0 else if c = 1 then some (1 : Int) else none) = .ok 1 := ⟨rfl, rfl⟩

example : inp (⟨0, [2], [2], 2, 4, 1, false⟩ : CB) ⟨4, [2], [2], 2, 4, 1, false⟩ (fun c => if c < 8 then some (c : Int) else none) =
    .ok ⟨(0 * 4 - 1 * 5) + (2 * 6 - 3 * 7), (0 * 5 + 1 * 4) + (2 * 7 + 3 * 6)⟩ := rfl

/-! ### C596: products of matrices -/

/-- With any selector the product is that of the matrices themselves. -/
theorem C596_mprod_partial [Ring α] (selector : Nat) {r x y : CB} {a b n : Nat} {F G H : List Nat → Cx α} {m : Buf α} (hr : r.Is [a, b] F m) (hx : x.Is [a, n] G m)
    (hy : y.Is [n, b] H m) (hax : r.Apart x) (hay : r.Apart y) :
    ∃ m', addMprod selector r x y m = .ok m' ∧
      r.Becomes [a, b] (fun ix => F ix + ((List.range n).map fun k => G [ix.getD 0 0, k] * H [k, ix.getD 1 0]).sum) m m' := by
  have inr : ∀ {i j : Nat}, i < a → j < b → InRange [i, j] [a, b] := fun hi hj => .cons hi (.cons hj .nil)
  have hpos : ∀ {i j : Nat}, i < a → j < b → position [a, b] [i, j] < [a, b].prod := fun hi hj => position_lt (inr hi hj)
  have inj : ∀ i ∈ pairs a b, ∀ j ∈ pairs a b, position [a, b] [i.1, i.2] = position [a, b] [j.1, j.2] → i = j := fun i hi j hj e => by
    have := position_inj (inr (mem_pairs.1 hi).1 (mem_pairs.1 hi).2) (inr (mem_pairs.1 hj).1 (mem_pairs.1 hj).2) e
    simp only [List.cons.injEq, and_true] at this
    exact Prod.ext this.1 this.2
  obtain ⟨m', h1, h2, h3⟩ := ccells_run (pairs a b) (fun p => r.arr + 2 * position [a, b] [p.1, p.2]) (fun p => r.arr + (2 * position [a, b] [p.1, p.2] + 1))
    (fun p => F [p.1, p.2] + ((List.range n).map fun k => G [p.1, k] * H [k, p.2]).sum)
    (fun m p => csum n (fun i m => x.get2 p.1 i m >>= fun u => y.get2 i p.2 m >>= fun v => Res.ok (u * v)) m >>= fun t => r.inc2 p.1 p.2 t m) m (nodup_pairs a b)
    (fun i hi j hj e => inj i hi j hj (by omega)) (fun i hi j hj e => inj i hi j hj (by omega)) (fun i hi j hj => by omega)
    (fun p hp => ⟨hr.some_at (by have := hpos (mem_pairs.1 hp).1 (mem_pairs.1 hp).2; omega), hr.some_at (by have := hpos (mem_pairs.1 hp).1 (mem_pairs.1 hp).2; omega)⟩)
    (by
      intro p hp m' hm
      have keep : ∀ {z : CB} {E : List Nat} {K : List Nat → Cx α}, z.Is E K m → r.Apart z → z.Is E K m' := fun hz ha => hz.keep fun c hc => hm c fun j hj _ => by
        have := hpos (mem_pairs.1 hj).1 (mem_pairs.1 hj).2
        exact ⟨fun e => ha _ (hr.owns (c := 2 * position [a, b] [j.1, j.2]) (by omega)) (e ▸ hc), fun e => ha _ (hr.owns (c := 2 * position [a, b] [j.1, j.2] + 1) (by omega)) (e ▸ hc)⟩
      have hx' := keep hx hax
      have hy' := keep hy hay
      have hp' := mem_pairs.1 hp
      have k := hr.has _ (inr hp'.1 hp'.2)
      have ne : ∀ j ∈ pairs a b, j ≠ p → position [a, b] [j.1, j.2] ≠ position [a, b] [p.1, p.2] := fun j hj hne e => hne (inj j hj p hp e)
      have e1 : m' (r.arr + 2 * position [a, b] [p.1, p.2]) = some (F [p.1, p.2]).re := by
        rw [hm _ fun j hj hne => by have := ne j hj hne; omega, k.1]
      have e2 : m' (r.arr + (2 * position [a, b] [p.1, p.2] + 1)) = some (F [p.1, p.2]).im := by
        rw [hm _ fun j hj hne => by have := ne j hj hne; omega, k.2]
      rw [csum_ok n _ m' (fun i => G [p.1, i] * H [i, p.2]) fun i hi => by rw [hx'.get2 hp'.1 hi, Res.ok_bind, hy'.get2 hi hp'.2, Res.ok_bind], Res.ok_bind, inc2, hr.ix2, Res.ok_bind,
        hr.coffs, Nat.add_assoc, incC_ok e1 e2 (by omega)])
  refine ⟨m', ?_, hr.mk' fun ix hi => ?_, fun c hc => h3 c fun p hp => ?_⟩
  · rw [addMprod, hr.dims, hx.dims, hy.dims]
    show (Res.assrt (decide (a = a)) >>= fun _ => Res.assrt (decide (b = b)) >>= fun _ => Res.assrt (decide (n = n)) >>= fun _ =>
      loop a m fun i m => loop b m fun j m => csum n (fun k m => x.get2 i k m >>= fun u => y.get2 k j m >>= fun v => Res.ok (u * v)) m >>= fun t => r.inc2 i j t m) = _
    rw [decide_eq_true (show a = a from rfl), decide_eq_true (show b = b from rfl), decide_eq_true (show n = n from rfl), Res.assrt_true, Res.ok_bind, Res.ok_bind, Res.ok_bind, loop2_eq, h1]
  · obtain ⟨i, j, rfl, hI, hj⟩ : ∃ i j, ix = [i, j] ∧ i < a ∧ j < b := by
      match ix, hi with
      | [i, j], .cons hi (.cons hj .nil) => exact ⟨i, j, rfl, hi, hj⟩
    exact h2 (i, j) (mem_pairs.2 ⟨hI, hj⟩)
  · have := hpos (mem_pairs.1 hp).1 (mem_pairs.1 hp).2
    exact ⟨hr.not_owns hc (by omega), hr.not_owns hc (by omega)⟩

theorem C596_sizes_partial [Ring α] (selector : Nat) {r x y : CB} {a b a' n n' b' : Nat} {F G H : List Nat → Cx α} {m : Buf α} (hr : r.Is [a, b] F m) (hx : x.Is [a', n] G m)
    (hy : y.Is [n', b'] H m) (h : a' ≠ a ∨ b' ≠ b ∨ n' ≠ n) : addMprod selector r x y m = .throw := by
  rw [addMprod, hr.dims, hx.dims, hy.dims]
  show (Res.assrt (decide (a' = a)) >>= fun _ => Res.assrt (decide (b' = b)) >>= fun _ => Res.assrt (decide (n' = n)) >>= fun _ => _) = _
  by_cases h1 : a' = a
  · by_cases h2 : b' = b
    · have h3 : n' ≠ n := by rcases h with h | h | h <;> [exact absurd h1 h; exact absurd h2 h; exact h]
      rw [decide_eq_true h1, decide_eq_true h2, decide_eq_false h3]; rfl
    · rw [decide_eq_true h1, decide_eq_false h2]; rfl
  · rw [decide_eq_false h1]; rfl

/-- With `selector` 2 the second matrix should be conjugated (legacy/backendB/CtensorB.hpp:1797): `i·conj(i)` should be 1, and -1 is added. -/
theorem C596_conj_fails : ∃ m', addMprod 2 (⟨0, [1, 1], [2, 2], 1, 2, 1, false⟩ : CB) ⟨2, [1, 1], [2, 2], 1, 2, 1, false⟩ ⟨4, [1, 1], [2, 2], 1, 2, 1, false⟩
    (fun c => if c = 3 ∨ c = 5 then some (1 : Int) else if c < 6 then some 0 else none) = .ok m' ∧ m' 0 = some (-1) := ⟨_, rfl, rfl⟩

example : ∃ m', addMprod 0 (⟨0, [1, 1], [2, 2], 1, 2, 1, false⟩ : CB) ⟨2, [1, 2], [4, 2], 2, 4, 1, false⟩ ⟨6, [2, 1], [2, 2], 2, 4, 1, false⟩
    (fun c => if c < 10 then some (c : Int) else none) = .ok m' ∧ m' 0 = some (0 + ((2 * 6 - 3 * 7) + (4 * 8 - 5 * 9))) := ⟨_, rfl, rfl⟩

/-! ### C597: rectifier -/

/-- Positive parts are added as they are, negative parts times `alpha`, separately for real and imaginary parts. -/
theorem C597_relu [Ring α] (pos neg : α → Bool) (hpn : ∀ a, pos a = true → neg a = false) (hz : ∀ a, pos a = false → neg a = false → a = 0) (alpha : α) {r x : CB} {D : List Nat}
    {F G : List Nat → Cx α} {m : Buf α} (hr : r.Is D F m) (hx : x.Is D G m) (ha : r.Apart x ∨ r.arr = x.arr) :
    ∃ m', addReLU pos neg alpha r x m = .ok m' ∧
      r.Becomes D (fun ix => ⟨(F ix).re + if pos (G ix).re then (G ix).re else alpha * (G ix).re, (F ix).im + if pos (G ix).im then (G ix).im else alpha * (G ix).im⟩) m m' := by
  obtain ⟨m', h1, h2⟩ := zipMem_ok (fun a b => a + ((if pos b then 1 else 0) + alpha * (if neg b then 1 else 0)) * b) hr hx ha
  refine ⟨m', by rw [addReLU, decide_eq_true (by rw [hr.asize, hx.asize]), Res.assrt_true, Res.ok_bind, h1], becomes_congr h2 fun ix _ => ?_⟩
  have e : ∀ b : α, ((if pos b then 1 else 0) + alpha * (if neg b then 1 else 0)) * b = if pos b then b else alpha * b := fun b => by
    cases hp : pos b with
    | true => simp [hpn b hp]
    | false =>
      cases hn : neg b with
      | true => simp
      | false => simp [hz b hp hn]
  simp only [e]

theorem C597_sizes [Ring α] (pos neg : α → Bool) (alpha : α) {r x : CB} {D E : List Nat} {F G : List Nat → Cx α} {m : Buf α} (hr : r.Is D F m) (hx : x.Is E G m)
    (he : D.prod ≠ E.prod) : addReLU pos neg alpha r x m = .throw := by
  rw [addReLU, decide_eq_false (by rw [hr.asize, hx.asize]; exact fun e => he e.symm)]; rfl

example : ∃ m', addReLU (fun a : Int => decide (0 < a)) (fun a => decide (a < 0)) 2 (⟨0, [1], [2], 1, 2, 1, false⟩ : CB) ⟨2, [1], [2], 1, 2, 1, false⟩
    (fun c => if c = 2 then some (-5) else if c = 3 then some 7 else if c < 2 then some 1 else none) = .ok m' ∧ m' 0 = some (-9) ∧ m' 1 = some 8 := ⟨_, rfl, rfl, rfl⟩

/-! ### C598: tensors of ATen -/

/-- A tensor of ATen without gaps, in row-major order. -/
theorem C598_of_partial {T : AT} {D : List Nat} {F : List Nat → Cx α} {m : Buf α} (hT : T.Is D F m) (hD : D ≠ []) (hs : T.strides = D.tails.tail.map List.prod) (junk : Nat → α)
    (q q' : Nat) (hf : Free m q' (2 * D.prod)) : ∃ x m', ofAten junk q q' T m = .ok (x, m') ∧ x.Fresh q' D F m m' := by
  have hst : T.strides = rmStrides D := by
    rw [hs, rmStrides, ← RAA.high_eq]
    simp
  have hat : ∀ ix, InRange ix D → m (T.data + 2 * position D ix) = some (F ix).re ∧ m (T.data + (2 * position D ix + 1)) = some (F ix).im := fun ix hi => by
    have := hT.2.2 ix hi
    rw [hst, dot_rmStrides _ _ hi.length] at this
    exact this
  have hV : (mk0 T.data D true).Is D F m := mk0_is hD _ _ hat
  obtain ⟨m', h1, h2⟩ := C592_set_partial (raw_is hD junk q' false m) (hV.old hf junk) (hV.apart_mk0 hf)
  refine ⟨mk0 q' D false, m', ?_, fresh_of h2⟩
  have hsame : (mk0 q' D false).sameStrides T = true := by
    rw [sameStrides, decide_eq_true_eq, hst]
    show _ = (rmStridesFrom 2 D).map _
    rw [rmStrides, ← RAA.high_eq, ← RAA.high_eq, List.map_map]
    exact List.map_congr_left fun l _ => by simp
  rw [ofAten, hT.1, noalloc_ok hD, Res.ok_bind, hsame]
  show (stdCopy (allocRaw junk m q' (2 * D.prod)) T.data (2 * D.prod) q' >>= fun m => Res.ok (mk0 q' D false, m)) = _
  exact (congrArg (fun r : Res (Buf α) => r >>= fun m => Res.ok (mk0 q' D false, m)) h1).trans rfl

/-- Other strides: the columns of a 2×2 matrix. The fourth number is written past the end of the array. -/
theorem C598_of_fails : ofAten (fun _ => (9 : Int)) 100 200 ⟨0, [2, 2], [1, 2]⟩ (fun c => if c < 8 then some (c : Int) else none) = .ub := rfl

/-- A view reads right whatever the strides are. -/
theorem C598_view_partial {T : AT} {D : List Nat} {F : List Nat → Cx α} {m : Buf α} (hT : T.Is D F m) (hD : D ≠ []) :
    ∃ x, viewAten T = .ok x ∧ x.dims = D ∧ x.isView = true ∧ ∀ ix, InRange ix D → x.get ix m = .ok (F ix) := by
  obtain ⟨s, S, hS⟩ : ∃ s S, T.strides = s :: S := by
    match h : T.strides with
    | [] => have := hT.2.1; rw [h] at this; exact absurd (List.eq_nil_of_length_eq_zero this.symm) hD
    | s :: S => exact ⟨s, S, rfl⟩
  refine ⟨{ mk0 T.data D true with strides := T.strides.map (2 * ·), memsize := 2 * s * D.headD 0 }, ?_, rfl, rfl, fun ix hi => ?_⟩
  · rw [viewAten, hT.1, noalloc_ok hD, Res.ok_bind, hS]; rfl
  · have h1 := RAA.ix_ok ix (T.strides.map (2 * ·)) [] (by rw [List.length_map, hT.2.1, hi.length])
    rw [List.append_nil] at h1
    have h2 : ∀ S ix : List Nat, dot (S.map (2 * ·)) ix = 2 * dot S ix := fun S => by
      induction S with
      | nil => intro ix; rfl
      | cons s S ih =>
        intro ix
        cases ix with
        | nil => rfl
        | cons i ix =>
          show 2 * s * i + dot (S.map (2 * ·)) ix = 2 * (s * i + dot S ix)
          rw [ih]; ring
    rw [get]
    show (RAA.atIx ix (T.strides.map (2 * ·)) >>= fun t => getC (T.data + t) (T.data + t + 1) m) = _
    rw [h1, Res.ok_bind, h2, Nat.add_assoc]
    exact getC_ok (hT.2.2 ix hi).1 (hT.2.2 ix hi).2

/-- But adding to the view of a transposed matrix goes by the order of the memory, and stops halfway: row 1, column 0 gets what the other matrix has in row 0, column 1, which itself
stays as it is. -/
theorem C598_view_fails : ∃ x m', viewAten ⟨0, [2, 2], [1, 2]⟩ = .ok x ∧ add x ⟨10, [2, 2], [4, 2], 4, 8, 1, false⟩ (fun c => if c < 8 then some (0 : Int) else if 10 ≤ c ∧ c < 18 then some c else none) = .ok m' ∧
    get ⟨10, [2, 2], [4, 2], 4, 8, 1, false⟩ [0, 1] m' = .ok ⟨12, 13⟩ ∧ x.get [1, 0] m' = .ok ⟨12, 13⟩ ∧ x.get [0, 1] m' = .ok ⟨0, 0⟩ :=
  ⟨_, _, rfl, rfl, rfl, rfl, rfl⟩

theorem C598_torch_partial [Zero α] {x : CB} {D : List Nat} {F : List Nat → Cx α} {m : Buf α} (h : x.Is D F m) (q : Nat) (hf : Free m q (2 * D.prod)) :
    ∃ T m', torch q x m = .ok (T, m') ∧ T.data = q ∧ T.Is D F m' ∧ (∀ c, ¬ (q ≤ c ∧ c < q + 2 * D.prod) → m' c = m c) := by
  obtain ⟨m', h1, h2⟩ := C592_set_partial (raw_is h.ne (fun _ => 0) q false m) (h.old hf fun _ => 0) (h.apart_mk0 hf)
  have hF := fresh_of h2
  refine ⟨⟨q, D, rmStrides D⟩, m', ?_, rfl, ⟨rfl, ?_, fun ix hi => ?_⟩, hF.2.2.2⟩
  · rw [torch, decide_eq_true h.coffs, Res.assrt_true, Res.ok_bind, h.dims, h.memsize, asize_eq]
    exact (congrArg (fun r : Res (Buf α) => r >>= fun m => Res.ok ((⟨q, D, rmStrides D⟩ : AT), m)) h1).trans rfl
  · exact rmStridesFrom_length _ _
  · show m' (q + 2 * dot (rmStrides D) ix) = _ ∧ m' (q + (2 * dot (rmStrides D) ix + 1)) = _
    rw [dot_rmStrides _ _ hi.length]
    exact h2.1.has ix hi

example : ∃ x m', ofAten (fun _ => (9 : Int)) 100 200 ⟨0, [2, 2], [2, 1]⟩ (fun c => if c < 8 then some (c : Int) else none) = .ok (x, m') ∧ x.get [1, 0] m' = .ok ⟨4, 5⟩ := ⟨_, _, rfl, rfl⟩

end CB

end Cnine
