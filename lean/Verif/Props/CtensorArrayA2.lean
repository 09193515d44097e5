import Verif.Props.CtensorArrayA
import Verif.Lemmas.Weave

/-!
# C560–C567: arrays of complex tensors of the old backend — copies, broadcasting, axes, conjugates, products
-/

namespace Cnine

variable {α : Type}

open RA

namespace CAA

theorem Is.not_free {X : CAA} {A D : List Nat} {F : List Nat → List Nat → Cx α} {m : Buf α} (h : X.Is A D F m) {q n : Nat} (hf : Free m q n) {c : Nat} (ho : X.Owns c) :
    ¬ (q ≤ c ∧ c < q + n) := ho.elim (h.re.not_free hf) (h.im.not_free hf)

/-! ### C560: copies, and one tensor for all cells -/

/-- A copy has the tensors of the array, in memory of its own. -/
theorem C560_copy {X : CAA} {A D : List Nat} {F : List Nat → List Nat → Cx α} {m : Buf α} (h : X.Is A D F m) (hm : 2 * X.re.base.cst ≤ X.memsize) (junk : Nat → α) (q : Nat)
    (hf : Free m q X.memsize) :
    ∃ Y m', copy junk q X m = .ok (Y, m') ∧ Y.re.base.arr = q ∧ Y.re.base.isView = false ∧ Y.re.nbu = X.re.nbu ∧ Y.Is A D F m' ∧ X.Is A D F m' ∧
      (∀ c, Y.Owns c → q ≤ c ∧ c < q + X.memsize) ∧ ∀ c, ¬ (q ≤ c ∧ c < q + X.memsize) → m' c = m c := by
  obtain ⟨g1, hg1, e1⟩ := h.re.flat
  obtain ⟨g2, hg2, e2⟩ := h.im.flat
  have hs := fun c => h.not_free (c := c) hf
  have hc : A.prod * cells D ≤ X.re.base.cst := by
    by_cases z : A.prod = 0
    · rw [z, Nat.zero_mul]; exact Nat.zero_le _
    · rw [h.re.cst z]
  have s1 : ∀ i, i < A.prod * cells D → X.Owns (X.re.base.arr + i) := fun i hi => .inl (h.re.owns hi)
  have s2 : ∀ i, i < A.prod * cells D → X.Owns (X.arrc + i) := fun i hi => .inr (h.im.owns hi)
  obtain ⟨m1, a1, a2, a3⟩ := stdCopy_ok (allocRaw junk m q X.memsize) X.re.base.arr (A.prod * cells D) q (RA.flat (A ++ [cells D]) g1 (g1 []))
    (fun i hi => by rw [raw_at _ _ ⟨by omega, by omega⟩]; rfl)
    (fun i hi => by rw [raw_off _ _ (hs _ (s1 i hi))]; exact hg1.at (g1 []) (by rw [RAA.flat_prod]; exact hi))
    (fun i h1 j h2 e => hs _ (s1 j h2) ⟨by omega, by omega⟩)
  have keep1 : ∀ c, X.Owns c → m1 c = m c := fun c o => by rw [a3 c fun i hi e => hs c o ⟨by omega, by omega⟩, raw_off _ _ (hs c o)]
  obtain ⟨m2, b1, b2, b3⟩ := stdCopy_ok m1 X.arrc (A.prod * cells D) (q + X.re.base.cst) (RA.flat (A ++ [cells D]) g2 (g2 []))
    (fun i hi => by rw [a3 _ fun j hj => by omega, raw_at _ _ ⟨by omega, by omega⟩]; rfl)
    (fun i hi => by rw [keep1 _ (s2 i hi)]; exact hg2.at (g2 []) (by rw [RAA.flat_prod]; exact hi))
    (fun i h1 j h2 e => hs _ (s2 j h2) ⟨by omega, by omega⟩)
  have keep2 : ∀ c, X.Owns c → m2 c = m c := fun c o => by rw [b3 c fun i hi e => hs c o ⟨by omega, by omega⟩, keep1 c o]
  have own1 : ∀ i, i < A.prod * cells D → m2 (q + i) = some (RA.flat (A ++ [cells D]) g1 (g1 []) i) := fun i hi => by rw [b3 _ fun j hj => by omega, a2 i hi]
  refine ⟨⟨{ X.re with base := { X.re.base with arr := q, nbu := -1, isView := false }, k := none }, q + X.re.base.cst, X.memsize⟩, m2, ?_, rfl, rfl, rfl, ⟨?_, ?_, ?_⟩,
    h.keep keep2, ?_, fun c hc => ?_⟩
  · rw [copy]
    simp only
    rw [h.re.total, a1, Res.ok_bind, b1, Res.ok_bind]
  · exact { h.re with
      pad := fun c hc => by
        show (m2 (q + c)).isSome
        rw [own1 c hc]; rfl
      has := fun ia id a b => by
        show m2 (q + _) = _
        rw [own1 _ (RAA.lt_of a b), ← RAA.flat_pos' a, RA.flat_pos (RAA.flat_range a b), e1 ia id a b] }
  · exact { h.im with
      pad := fun c hc => by
        show (m2 (q + X.re.base.cst + c)).isSome
        rw [b2 c hc]; rfl
      has := fun ia id a b => by
        show m2 (q + X.re.base.cst + _) = _
        rw [b2 _ (RAA.lt_of a b), ← RAA.flat_pos' a, RA.flat_pos (RAA.flat_range a b), e2 ia id a b] }
  · rintro c ⟨-, o⟩ ⟨o', -⟩
    have o : c < q + X.re.base.asize := o
    have o' : q + X.re.base.cst ≤ c := o'
    rw [h.re.total] at o
    omega
  · rintro c (⟨o, o'⟩ | ⟨o, o'⟩)
    · have o : q ≤ c := o
      have o' : c < q + X.re.base.asize := o'
      rw [h.re.total] at o'
      omega
    · have o : q + X.re.base.cst ≤ c := o
      have o' : c < q + X.re.base.cst + X.re.base.asize := o'
      rw [h.re.total] at o'
      omega
  · rw [b3 c fun i hi e => hc ⟨by omega, by omega⟩, a3 c fun i hi e => hc ⟨by omega, by omega⟩, raw_off _ _ hc]

/-- `broadcast_copy(x)`: every cell becomes `x`. -/
theorem C560_broadcastCopy {X : CAA} {A D : List Nat} {F : List Nat → List Nat → Cx α} {m : Buf α} (h : X.Is A D F m) {x : CA} {G : List Nat → Cx α} (hx : x.Is D G m)
    (ha : ∀ c, X.Owns c → ¬ x.Owns c) : ∃ m', X.broadcastCopy x m = .ok m' ∧ X.Becomes A D (fun _ => G) m m' := by
  rw [broadcastCopy, decide_eq_true (by rw [hx.dims, h.re.cdims]), Res.assrt_true, Res.ok_bind, h.re.aasize]
  apply ccells_core h
  intro ia hi m' hc hm
  have hx' : x.Is D G m' := hx.keep fun c ho => hm c fun o => ha c o ho
  obtain ⟨m1, w, e1, e2, e3⟩ := C370_setT hc.re hx'.re rfl fun c o o' => ha c (h.cellOwns (position_lt hi) (.inl o)) (.inl o')
  obtain ⟨m2, w', e4, e5, e6⟩ := C370_setT (hc.im_after e2) (hx'.im.keep fun c ho => e2.2 c fun o => ha c (h.cellOwns (position_lt hi) (.inl o)) (.inr ho)) rfl
    fun c o o' => ha c (h.cellOwns (position_lt hi) (.inr o)) (.inr o')
  refine ⟨m2, ?_, CA.becomes_congr (CA.two hc e2 e5) fun id hd => by rw [e3 id id hd hd rfl, e6 id id hd hd rfl]⟩
  rw [RA.setT, decide_eq_true (by rw [hc.re.asize, hx'.re.asize]), Res.assrt_true, Res.ok_bind] at e1
  rw [RA.setT, decide_eq_true (by rw [(hc.im_after e2).asize, hx'.im.asize]), Res.assrt_true, Res.ok_bind] at e4
  have z : x.asize = X.re.asize := by rw [hx.asize, h.re.asize]
  rw [z]
  have e1' : stdCopy m' x.arr X.re.asize (X.re.base.arr + position A ia * X.re.cellstride) = .ok m1 := e1
  rw [e1', Res.ok_bind]
  exact e4

/-- `broadcast_add(x)`, `broadcast_subtract(x)`. -/
theorem C560_broadcastUpd (op : α → α → α) {X : CAA} {A D : List Nat} {F : List Nat → List Nat → Cx α} {m : Buf α} (h : X.Is A D F m) {x : CA} {G : List Nat → Cx α} (hx : x.Is D G m)
    (hn : X.re.nbu = x.nbu) (ha : ∀ c, X.Owns c → ¬ x.Owns c) :
    ∃ m', X.broadcastUpd op x m = .ok m' ∧ X.Becomes A D (fun ia id => ⟨op (F ia id).re (G id).re, op (F ia id).im (G id).im⟩) m m' := by
  rw [broadcastUpd, decide_eq_true hn, Res.assrt_true, Res.ok_bind, decide_eq_true (by rw [hx.dims, h.re.cdims]), Res.assrt_true, Res.ok_bind, h.re.aasize]
  apply ccells_core h
  intro ia hi m' hc hm
  have hx' : x.Is D G m' := hx.keep fun c ho => hm c fun o => ha c o ho
  obtain ⟨m2, h1, h2⟩ := CA.czip op op hc hx' (.inl fun c o o' => ha c (h.cellOwns (position_lt hi) o) o')
  refine ⟨m2, ?_, h2⟩
  rw [CA.zipT] at h1
  obtain ⟨m1, e1, e4⟩ := Res.bind_eq_ok.1 h1
  rw [RA.zipT, decide_eq_true (by rw [hc.re.asize, hx'.re.asize]), Res.assrt_true, Res.ok_bind] at e1
  rw [RA.zipT, decide_eq_true (by rw [hc.im.asize, hx'.im.asize]), Res.assrt_true, Res.ok_bind] at e4
  have z : x.asize = X.re.asize := by rw [hx.asize, h.re.asize]
  rw [z]
  have e1' : stdAdd op m' x.arr X.re.asize (X.re.base.arr + position A ia * X.re.cellstride) = .ok m1 := e1
  rw [e1', Res.ok_bind]
  exact e4

/-- `plus(y)`: the sums, in a new array. -/
theorem C560_plus [Add α] {X y : CAA} {A D : List Nat} {F G : List Nat → List Nat → Cx α} {m : Buf α} (h : X.Is A D F m) (hy : y.Is A D G m) (hm : 2 * X.re.base.cst ≤ X.memsize)
    (junk : Nat → α) (q : Nat) (hf : Free m q X.memsize) :
    ∃ Y m', plus junk q X y m = .ok (Y, m') ∧ Y.re.base.arr = q ∧ Y.Is A D (fun ia id => F ia id + G ia id) m' ∧
      ∀ c, ¬ (q ≤ c ∧ c < q + X.memsize) → m' c = m c := by
  obtain ⟨Y, m1, h1, h2, -, -, h3, -, hin, h4⟩ := C560_copy h hm junk q hf
  have hy1 : y.Is A D G m1 := hy.keep fun c ho => h4 c (hy.not_free hf ho)
  have part : ∀ {R S : RAA} {f g : List Nat → List Nat → α} {m1 : Buf α}, R.Is A D f m1 → S.Is A D g m1 → (∀ c, R.Owns c → ¬ S.Owns c) →
      ∃ m', RA.add R.base S.base m1 = .ok m' ∧ R.Becomes A D (fun ia id => f ia id + g ia id) m1 m' := by
    intro R S f g m1 hR hS ha
    obtain ⟨F, f1, f2⟩ := hR.flat
    obtain ⟨G, g1, g2⟩ := hS.flat
    obtain ⟨m', e1, e2⟩ := C370_add f1 g1 (.inl fun c o o' => ha c ((hR.flatOwns c).1 o) ((hS.flatOwns c).1 o'))
    refine ⟨m', ?_, RAA.becomes_congr (hR.unflat e2) fun ia id a b => by rw [f2 ia id a b, g2 ia id a b]⟩
    rw [← e1]
    simp only [RA.add, RA.zipT]
    rw [hR.total, hS.total]
    rfl
  obtain ⟨n1, a1, a2⟩ := part h3.re hy1.re fun c o o' => hy.not_free hf (.inl o') (hin c (.inl o))
  obtain ⟨n2, b1, b2⟩ := part (h3.im_after a2) (hy1.im.keep fun c o => a2.2 c fun o' => hy.not_free hf (.inr o) (hin c (.inl o')))
    fun c o o' => hy.not_free hf (.inr o') (hin c (.inr o))
  have hb := two h3 a2 b2
  refine ⟨Y, n2, ?_, h2, hb.1, fun c hc => by rw [hb.2 c fun o => hc (hin c o), h4 c hc]⟩
  rw [plus, h1, Res.ok_bind]
  simp only
  rw [a1, Res.ok_bind, b1, Res.ok_bind]

/-- `plus(y)`, `minus(y)` with one tensor for all. -/
theorem C560_plusOne (op : α → α → α) {X : CAA} {y : CA} {A D : List Nat} {F : List Nat → List Nat → Cx α} {G : List Nat → Cx α} {m : Buf α} (h : X.Is A D F m) (hy : y.Is D G m)
    (hn : X.re.nbu = y.nbu) (hm : 2 * X.re.base.cst ≤ X.memsize) (junk : Nat → α) (q : Nat) (hf : Free m q X.memsize) :
    ∃ Y m', plusOne op junk q X y m = .ok (Y, m') ∧ Y.re.base.arr = q ∧ Y.Is A D (fun ia id => ⟨op (F ia id).re (G id).re, op (F ia id).im (G id).im⟩) m' ∧
      ∀ c, ¬ (q ≤ c ∧ c < q + X.memsize) → m' c = m c := by
  obtain ⟨Y, m1, h1, h2, -, h5, h3, -, hin, h4⟩ := C560_copy h hm junk q hf
  have hy1 : y.Is D G m1 := hy.keep fun c ho => h4 c (hy.not_free hf ho)
  obtain ⟨m', e1, e2⟩ := C560_broadcastUpd op h3 hy1 (h5.trans hn) fun c o o' => hy.not_free hf o' (hin c o)
  refine ⟨Y, m', ?_, h2, e2.1, fun c hc => by rw [e2.2 c fun o => hc (hin c o), h4 c hc]⟩
  rw [plusOne, h1, Res.ok_bind]
  simp only
  rw [e1, Res.ok_bind]

/-- The memory of `ex` (128 numbers), a vector with two complex entries at 200. -/
def exM : Buf Int := fun c => if c < 128 then some (c : Int) else if 200 ≤ c ∧ c < 204 then some ((c : Int) - 100) else none

example : (match ex.broadcastUpd (· - ·) ⟨200, 202, [2], [1], 2, 4, 2, -1, false⟩ exM, plus (fun _ => 9) 300 ex ex exM with
    | .ok m', .ok (Y, m'') => (m' 0 == some (-100) && m' 33 == some (33 - 101) && m' 64 == some (64 - 102) && m' 97 == some (97 - 103) && m' 34 == some 34 &&
        Y.arrc == 364 && m'' 333 == some 66 && m'' 397 == some 194)
    | _, _ => false) = true := by decide +kernel

/-! ### C561: what fails -/

/-- In a copy no tensor can be looked at. -/
theorem C561_copy_fails {X : CAA} (junk : Nat → α) (q : Nat) {Y : CAA} {m m' : Buf α} (h : copy junk q X m = .ok (Y, m')) (i : Nat) : Y.cell i = .ub := by
  have : Y.re.k = none := by
    rw [copy] at h
    simp only [Res.bind_eq_ok] at h
    obtain ⟨p, _, p', _, e⟩ := h
    cases e
    rfl
  unfold cell
  rw [this]

/-- An array from one tensor has no tensor. -/
theorem C561_single_fails (junk : Nat → α) (q : Nat) (x : CA) (m : Buf α) {X : CAA} {m' : Buf α} (h : single junk q x m = .ok (X, m')) : X.re.aasize = 0 ∧ X.re.adims = [0] := by
  by_cases hx : x.dims = []
  · rw [single, hx] at h; exact absurd h (by simp [raw, RA.array])
  · rw [single, raw_eq (by simp) hx, Res.ok_bind] at h
    simp only [Res.bind_eq_ok] at h
    obtain ⟨m1, _, e⟩ := h
    cases e
    exact ⟨by simp [mk0, RAA.mk0], rfl⟩

/-- `add_broadcast` and `subtract_broadcast` never succeed. -/
theorem C561_addBroadcast_fails (op : CA → CA → Buf α → Res (Buf α)) (junk : Nat → α) (q : Nat) (X : CAA) (y : CA) (m m' : Buf α) : addBroadcast op junk q X y m ≠ .ok m' := by
  intro h
  rw [addBroadcast] at h
  simp only [Res.bind_eq_ok] at h
  obtain ⟨⟨Y, m1⟩, h1, h⟩ := h
  have := (C561_single_fails junk q y m h1).1
  simp only [Res.bind_eq_ok] at h
  obtain ⟨_, h2, _⟩ := h
  rw [this] at h2
  exact absurd h2 (by simp [Res.assrt])

/-- `scatter_add_times_c(x,C)` and `scatter_add_div_c(x,C)` throw for arrays with equal sizes. -/
theorem C561_scatterAdd_fails [Add α] [Sub α] [Mul α] (r : Cx α → Cx α) {X x : CAA} {A D : List Nat} {F G : List Nat → List Nat → Cx α} {m : Buf α} (h : X.Is A D F m) (hx : x.Is A D G m)
    (C : CA) : scatterAdd r X x C m = .throw := by
  rw [scatterAdd, decide_eq_false]
  · rfl
  · rw [h.re.adims, hx.re.dims]
    intro e
    have := congrArg List.length e
    rw [List.length_append] at this
    exact h.re.neD (List.length_eq_zero_iff.1 (by omega))

example : ∃ X m', single (fun _ => (9 : Int)) 300 ⟨200, 202, [2], [1], 2, 4, 2, -1, false⟩ exM = .ok (X, m') ∧ m' 333 = some 103 := ⟨_, _, rfl, rfl⟩

example : (match copy (fun _ => 9) 300 ex exM with
    | .ok (Y, m') => (Y.re.base.dims == [2, 2] && m' 397 == some 97)
    | _ => false) = true := by decide +kernel

/-! ### C562: along an axis -/

theorem Works.ub {P Q : Nat → Prop} : Works P Q fun _ : Buf α => .ub := ⟨fun _ _ h => (by cases h), fun _ _ _ h => (by cases h)⟩

/-- A block that is copied or added works on its own cells. -/
def Local (cp : Buf α → Nat → Nat → Nat → Res (Buf α)) : Prop :=
  ∀ (P Q : Nat → Prop) (src n dst : Nat), (∀ i, i < n → P (dst + i) ∧ ¬ Q (dst + i) ∧ ¬ Q (src + i)) → Works P Q fun m => cp m src n dst

theorem local_copy : Local (α := α) stdCopy := by
  intro P Q src n dst h
  unfold stdCopy
  by_cases c : src ≤ dst ∧ dst < src + n
  · simp only [if_pos c]; exact Works.ub
  · simp only [if_neg c]
    exact .loop n fun i hi => .copy (h i hi).1 (h i hi).2.1 (h i hi).2.2

theorem local_add (op : α → α → α) : Local (stdAdd op) := fun _ _ _ n _ h => .loop n fun i hi => .upd op (h i hi).1 (h i hi).2.1 (h i hi).2.2

theorem get_axis (A B : List Nat) (n : Nat) : Res.get (A ++ n :: B) A.length = .ok n := by
  rw [Res.get, List.getElem?_append_right (Nat.le_refl _), Nat.sub_self]; rfl

theorem fits_axis (A B : List Nat) (n : Nat) : RAA.fits (A ++ n :: B) (A ++ B) A.length = true := by
  rw [RAA.fits]
  simp only [Bool.and_eq_true, decide_eq_true_eq, beq_iff_eq]
  exact ⟨by simp; omega, RAA.erase_app rfl⟩

theorem drop_axis (A B : List Nat) (n : Nat) : (A ++ n :: B).drop (A.length + 1) = B ∧ (A ++ n :: B).drop A.length = n :: B ∧ (A ++ B).drop A.length = B :=
  ⟨by rw [List.drop_append, List.drop_of_length_le (by omega)]; simp, List.drop_left, List.drop_left⟩

theorem loop_one {σ : Type} (s : σ) (f : Nat → σ → Res σ) : loop 1 s f = f 0 s := by
  rw [show (1 : Nat) = 0 + 1 from rfl, RA.loop_snoc]; rfl

/-- The loops of `broadcast_copy(ix,x)` and `broadcast_add(ix,x)`, for real and for complex arrays. -/
theorem ix_form (cp : Buf α → Nat → Nat → Nat → Res (Buf α)) {X x : RAA} {A B D : List Nat} {n : Nat} {f g : List Nat → List Nat → α} {m m0 : Buf α} (h : X.Is (A ++ n :: B) D f m)
    (hx : x.Is (A ++ B) D g m0) (hn : X.nbu = x.nbu) (h0 : (A ++ n :: B).prod ≠ 0) (m' : Buf α) (p q : Nat) :
    RAA.broadcastIx cp X A.length x m' = (loop A.prod m' fun a m => loop n m fun k m => cp m (x.base.arr + a * (B.prod * cells D)) (B.prod * cells D)
        (X.base.arr + a * ((n * B.prod) * cells D) + k * (B.prod * cells D))) ∧
    broadcastIx cp ⟨X, p, q⟩ A.length ⟨x, p', q'⟩ m' = (loop A.prod m' fun a m => loop n m fun k m =>
      cp m (x.base.arr + a * (B.prod * cells D)) (B.prod * cells D) (X.base.arr + a * ((n * B.prod) * cells D) + k * (B.prod * cells D)) >>= fun m =>
      cp m (p' + a * (B.prod * cells D)) (B.prod * cells D) (p + a * ((n * B.prod) * cells D) + k * (B.prod * cells D))) := by
  have hc := (cells_pos D).1
  have hpr : (A ++ n :: B).prod = A.prod * (n * B.prod) := by rw [List.prod_append, List.prod_cons]
  have hab : (A ++ B).prod = A.prod * B.prod := List.prod_append
  have hA : A.prod ≠ 0 := fun z => h0 (by rw [hpr, z, Nat.zero_mul])
  have hnB : n * B.prod ≠ 0 := fun z => h0 (by rw [hpr, z, Nat.mul_zero])
  have hB : B.prod ≠ 0 := fun z => hnB (by rw [z, Nat.mul_zero])
  obtain ⟨d1, d2, d3⟩ := drop_axis A B n
  rw [RAA.broadcastIx, broadcastIx]
  simp only
  rw [decide_eq_true hn, Res.assrt_true, Res.ok_bind, Res.ok_bind, h.adims, hx.adims, fits_axis, Res.assrt_true, Res.ok_bind, Res.ok_bind, get_axis, Res.ok_bind, Res.ok_bind]
  by_cases z : A.length = 0
  · have zA : A = [] := List.length_eq_zero_iff.1 z
    subst zA
    rw [if_pos z, if_pos z, h.stride (n := 0) (by simp), Res.ok_bind, Res.ok_bind, hx.cst (by rw [hab]; exact Nat.mul_ne_zero hA hB)]
    have ep : ((([] : List Nat) ++ n :: B).drop (0 + 1)).prod = B.prod := by simp
    rw [ep, show (([] : List Nat) ++ B).prod = B.prod by simp, show ([] : List Nat).prod = 1 from rfl, loop_one, loop_one]
    simp only [Nat.zero_mul, Nat.add_zero]
    exact ⟨trivial, trivial⟩
  · have e4 : A.length - 1 + 1 = A.length := by omega
    rw [if_neg z, if_neg z, h.stride (n := A.length - 1) (by simp; omega), Res.ok_bind, Res.ok_bind, h.stride (n := A.length) (by simp), Res.ok_bind, Res.ok_bind,
      hx.stride (n := A.length - 1) (by simp; omega), Res.ok_bind, Res.ok_bind,
      e4, d1, d2, d3, List.prod_cons, decide_eq_true (Nat.mul_ne_zero hnB (by omega)), show Res.need true = .ok () from rfl, Res.ok_bind, Res.ok_bind, h.cst h0, hpr, Nat.mul_assoc A.prod,
      Nat.mul_div_cancel _ (Nat.pos_of_ne_zero (Nat.mul_ne_zero hnB (by omega)))]
    exact ⟨rfl, rfl⟩

/-- The blocks are in the arrays. -/
theorem axis_owns {X : RAA} {A B D : List Nat} {n : Nat} {f : List Nat → List Nat → α} {m : Buf α} (h : X.Is (A ++ n :: B) D f m) {a k i : Nat} (h1 : a < A.prod) (h2 : k < n)
    (hi : i < B.prod * cells D) : X.Owns (X.base.arr + a * ((n * B.prod) * cells D) + k * (B.prod * cells D) + i) := by
  rw [show X.base.arr + a * ((n * B.prod) * cells D) + k * (B.prod * cells D) + i = X.base.arr + (a * (n * (B.prod * cells D)) + (k * (B.prod * cells D) + i)) by
    rw [Nat.mul_assoc n]; omega]
  refine h.owns ?_
  rw [List.prod_append, List.prod_cons, Nat.mul_assoc, Nat.mul_assoc n]
  exact two_lt h1 (two_lt h2 hi)

theorem slice_owns {x : RAA} {A B D : List Nat} {g : List Nat → List Nat → α} {m : Buf α} (hx : x.Is (A ++ B) D g m) {a i : Nat} (h1 : a < A.prod) (hi : i < B.prod * cells D) :
    x.Owns (x.base.arr + a * (B.prod * cells D) + i) := by
  rw [Nat.add_assoc]
  refine hx.owns ?_
  rw [List.prod_append, Nat.mul_assoc]
  exact two_lt h1 hi

theorem cix_core {cp : Buf α → Nat → Nat → Nat → Res (Buf α)} {st : Buf α → Nat → Nat → Res (Buf α)} {op : α → α → α} (hcp : RAA.Moves cp st op) (hl : Local cp)
    {X x : CAA} {A B D : List Nat} {n : Nat} {F G : List Nat → List Nat → Cx α} {m : Buf α} (h : X.Is (A ++ n :: B) D F m) (hx : x.Is (A ++ B) D G m) (hn : X.re.nbu = x.re.nbu)
    (h0 : (A ++ n :: B).prod ≠ 0) (ha : ∀ c, X.Owns c → ¬ x.Owns c) :
    ∃ m', broadcastIx cp X A.length x m = .ok m' ∧ X.Becomes (A ++ n :: B) D
      (fun ia id => ⟨op (F ia id).re (G (ia.eraseIdx A.length) id).re, op (F ia id).im (G (ia.eraseIdx A.length) id).im⟩) m m' := by
  obtain ⟨m1, a1, a2⟩ := RAA.ix_core hcp h.re hx.re hn h0 fun c o o' => ha c (.inl o) (.inl o')
  obtain ⟨m2, b1, b2⟩ := RAA.ix_core hcp (h.im_after a2) (hx.im.keep fun c o => a2.2 c fun o' => ha c (.inl o') (.inr o)) hn h0 fun c o o' => ha c (.inr o) (.inr o')
  refine ⟨m2, ?_, two h a2 b2⟩
  rw [(ix_form cp h.re hx.re hn h0 m 0 0 (p' := 0) (q' := 0)).1] at a1
  rw [(ix_form cp h.im hx.im hn h0 m1 0 0 (p' := 0) (q' := 0)).1] at b1
  have form := (ix_form cp h.re hx.re hn h0 m X.arrc X.memsize (p' := x.arrc) (q' := x.memsize)).2
  refine Eq.trans form (weave2 (P := X.re.Owns) (Q := X.im.Owns) h.apart A.prod n (fun a h1 k h2 => ?_) (fun a h1 k h2 => ?_) a1 b1)
  · exact hl _ _ _ _ _ fun i hi => ⟨axis_owns h.re h1 h2 hi, h.apart _ (axis_owns h.re h1 h2 hi), fun o => ha _ (.inr o) (.inl (slice_owns hx.re h1 hi))⟩
  · exact hl _ _ _ _ _ fun i hi => ⟨axis_owns h.im h1 h2 hi, fun o => h.apart _ o (axis_owns h.im h1 h2 hi), fun o => ha _ (.inl o) (.inr (slice_owns hx.im h1 hi))⟩

/-- `broadcast_copy(ix,x)`: every slice along the axis becomes `x`. -/
theorem C562_broadcastCopy {X x : CAA} {A B D : List Nat} {n : Nat} {F G : List Nat → List Nat → Cx α} {m : Buf α} (h : X.Is (A ++ n :: B) D F m) (hx : x.Is (A ++ B) D G m)
    (hn : X.re.nbu = x.re.nbu) (h0 : (A ++ n :: B).prod ≠ 0) (ha : ∀ c, X.Owns c → ¬ x.Owns c) :
    ∃ m', broadcastIx stdCopy X A.length x m = .ok m' ∧ X.Becomes (A ++ n :: B) D (fun ia id => G (ia.eraseIdx A.length) id) m m' :=
  cix_core RAA.moves_copy local_copy h hx hn h0 ha

/-- `broadcast_add(ix,x)`: every slice along the axis gets `x` added. -/
theorem C562_broadcastAdd [Add α] {X x : CAA} {A B D : List Nat} {n : Nat} {F G : List Nat → List Nat → Cx α} {m : Buf α} (h : X.Is (A ++ n :: B) D F m) (hx : x.Is (A ++ B) D G m)
    (hn : X.re.nbu = x.re.nbu) (h0 : (A ++ n :: B).prod ≠ 0) (ha : ∀ c, X.Owns c → ¬ x.Owns c) :
    ∃ m', broadcastIx (stdAdd (· + ·)) X A.length x m = .ok m' ∧ X.Becomes (A ++ n :: B) D (fun ia id => F ia id + G (ia.eraseIdx A.length) id) m m' :=
  cix_core (RAA.moves_add _) (local_add _) h hx hn h0 ha

theorem reduces_axis (A B : List Nat) (n : Nat) : RAA.reduces (A ++ B) (A ++ n :: B) A.length = true := by
  rw [RAA.reduces]
  simp only [Bool.and_eq_true, decide_eq_true_eq, List.all_eq_true, List.mem_range, beq_iff_eq, Bool.or_eq_true]
  refine ⟨⟨.inl (by simp; omega), fun i hi => ?_⟩, fun i hi => ?_⟩
  · rw [List.getElem?_append_left hi, List.getElem?_append_left hi]
  · rcases Nat.lt_or_ge A.length i with q | q
    · right
      rw [List.getElem?_append_right (by omega), List.getElem?_append_right (by omega), show i - A.length = (i - 1 - A.length) + 1 by omega, List.getElem?_cons_succ]
    · exact .inl q

/-- The loops of `add_reduce(x,ix)`, for real and for complex arrays. -/
theorem reduce_form [Add α] {X x : RAA} {A B D : List Nat} {n : Nat} {f g : List Nat → List Nat → α} {m m0 : Buf α} (h : X.Is (A ++ B) D f m)
    (hx : x.Is (A ++ n :: B) D g m0) (hn : X.nbu = x.nbu) (h0 : (A ++ n :: B).prod ≠ 0) (m' : Buf α) (p q : Nat) :
    RAA.addReduce X x A.length m' = (loop A.prod m' fun a m => loop n m fun k m => stdAdd (· + ·) m
      (x.base.arr + a * ((n * B.prod) * cells D) + k * (B.prod * cells D)) (B.prod * cells D) (X.base.arr + a * (B.prod * cells D))) ∧
    addReduce ⟨X, p, q⟩ ⟨x, p', q'⟩ A.length m' = (loop A.prod m' fun a m => loop n m fun k m =>
      stdAdd (· + ·) m (x.base.arr + a * ((n * B.prod) * cells D) + k * (B.prod * cells D)) (B.prod * cells D) (X.base.arr + a * (B.prod * cells D)) >>= fun m =>
      stdAdd (· + ·) m (p' + a * ((n * B.prod) * cells D) + k * (B.prod * cells D)) (B.prod * cells D) (p + a * (B.prod * cells D))) := by
  have hc := (cells_pos D).1
  have hpr : (A ++ n :: B).prod = A.prod * (n * B.prod) := by rw [List.prod_append, List.prod_cons]
  have hnB : n * B.prod ≠ 0 := fun z => h0 (by rw [hpr, z, Nat.mul_zero])
  obtain ⟨d1, d2, d3⟩ := drop_axis A B n
  rw [RAA.addReduce, addReduce]
  simp only
  rw [decide_eq_true hn, Res.assrt_true, Res.ok_bind, Res.ok_bind, decide_eq_true (by rw [h.adims, hx.adims]; simp), show Res.need true = .ok () from rfl, Res.ok_bind, Res.ok_bind,
    h.adims, hx.adims, reduces_axis, Res.assrt_true, Res.ok_bind, Res.ok_bind, get_axis, Res.ok_bind, Res.ok_bind]
  by_cases z : A.length = 0
  · have zA : A = [] := List.length_eq_zero_iff.1 z
    subst zA
    rw [if_pos z, if_pos z, hx.stride (n := 0) (by simp), Res.ok_bind, Res.ok_bind]
    have ep : ((([] : List Nat) ++ n :: B).drop (0 + 1)).prod = B.prod := by simp
    rw [ep, show ([] : List Nat).prod = 1 from rfl, loop_one, loop_one]
    simp only [Nat.zero_mul, Nat.add_zero]
    exact ⟨trivial, trivial⟩
  · have e4 : A.length - 1 + 1 = A.length := by omega
    rw [if_neg z, if_neg z, hx.stride (n := A.length - 1) (by simp; omega), Res.ok_bind, Res.ok_bind, hx.stride (n := A.length) (by simp), Res.ok_bind, Res.ok_bind,
      h.stride (n := A.length - 1) (by simp; omega), Res.ok_bind, Res.ok_bind,
      e4, d1, d2, d3, List.prod_cons, decide_eq_true (Nat.mul_ne_zero hnB (by omega)), show Res.need true = .ok () from rfl, Res.ok_bind, Res.ok_bind, hx.cst h0, hpr, Nat.mul_assoc A.prod,
      Nat.mul_div_cancel _ (Nat.pos_of_ne_zero (Nat.mul_ne_zero hnB (by omega)))]
    exact ⟨rfl, rfl⟩

/-- `add_reduce(x,ix)`: the sums along the axis are added. -/
theorem C562_addReduce [AddMonoid α] {X x : CAA} {A B D : List Nat} {n : Nat} {F G : List Nat → List Nat → Cx α} {m : Buf α} (h : X.Is (A ++ B) D F m) (hx : x.Is (A ++ n :: B) D G m)
    (hn : X.re.nbu = x.re.nbu) (h0 : (A ++ n :: B).prod ≠ 0) (ha : ∀ c, X.Owns c → ¬ x.Owns c) :
    ∃ m', addReduce X x A.length m = .ok m' ∧
      X.Becomes (A ++ B) D (fun ia id => F ia id + ⟨((List.range n).map fun k => (G (ia.insertIdx A.length k) id).re).sum,
        ((List.range n).map fun k => (G (ia.insertIdx A.length k) id).im).sum⟩) m m' := by
  obtain ⟨m1, a1, a2⟩ := RAA.C530_addReduce h.re hx.re hn h0 fun c o o' => ha c (.inl o) (.inl o')
  obtain ⟨m2, b1, b2⟩ := RAA.C530_addReduce (h.im_after a2) (hx.im.keep fun c o => a2.2 c fun o' => ha c (.inl o') (.inr o)) hn h0 fun c o o' => ha c (.inr o) (.inr o')
  refine ⟨m2, ?_, two h a2 b2⟩
  rw [(reduce_form h.re hx.re hn h0 m 0 0 (p' := 0) (q' := 0)).1] at a1
  rw [(reduce_form h.im hx.im hn h0 m1 0 0 (p' := 0) (q' := 0)).1] at b1
  have form := (reduce_form h.re hx.re hn h0 m X.arrc X.memsize (p' := x.arrc) (q' := x.memsize)).2
  refine Eq.trans form (weave2 (P := X.re.Owns) (Q := X.im.Owns) h.apart A.prod n (fun a h1 k h2 => ?_) (fun a h1 k h2 => ?_) a1 b1)
  · exact local_add _ _ _ _ _ _ fun i hi => ⟨slice_owns h.re h1 hi, h.apart _ (slice_owns h.re h1 hi), fun o => ha _ (.inr o) (.inl (axis_owns hx.re h1 h2 hi))⟩
  · exact local_add _ _ _ _ _ _ fun i hi => ⟨slice_owns h.im h1 hi, fun o => h.apart _ o (slice_owns h.im h1 hi), fun o => ha _ (.inl o) (.inr (axis_owns hx.im h1 h2 hi))⟩

/-- An axis of size 0 that is not the first: the code divides by zero. -/
theorem C562_zero_fails (cp : Buf α → Nat → Nat → Nat → Res (Buf α)) {X x : CAA} {A B D : List Nat} {F G : List Nat → List Nat → Cx α} {m : Buf α} (h : X.Is (A ++ 0 :: B) D F m)
    (hx : x.Is (A ++ B) D G m) (hn : X.re.nbu = x.re.nbu) (hA : A ≠ []) : broadcastIx cp X A.length x m = .ub := by
  have hl : 0 < A.length := List.length_pos_iff.2 hA
  rw [broadcastIx, decide_eq_true hn, Res.assrt_true, Res.ok_bind, h.re.adims, hx.re.adims, fits_axis, Res.assrt_true, Res.ok_bind, get_axis, Res.ok_bind, if_neg (by omega),
    h.re.stride (n := A.length - 1) (by simp; omega), Res.ok_bind, h.re.stride (n := A.length) (by simp), Res.ok_bind, hx.re.stride (n := A.length - 1) (by simp; omega), Res.ok_bind,
    show A.length - 1 + 1 = A.length by omega, (drop_axis A B 0).2.1, List.prod_cons]
  simp

/-- An array of 2 × 2 vectors with 2 entries, at 0 and 128. -/
def ex22 : CAA := ⟨⟨⟨0, [2, 2, 2], [64, 32, 1], 128, 128, 128, -1, false⟩, some 1, -1, [2, 2], [2], [2, 1], [1], 4, 2, 32⟩, 128, 256⟩

/-- `ex` at 256 and 320. -/
def exUp : CAA := { ex with re := { ex.re with base := { ex.re.base with arr := 256 } }, arrc := 320 }

example : (match broadcastIx stdCopy ex22 1 exUp (fun c => if c < 384 then some (c : Int) else none), addReduce exUp ex22 0 (fun c => if c < 384 then some (c : Int) else none) with
    | .ok m', .ok m'' => (m' 0 == some 256 && m' 33 == some 257 && m' 65 == some 289 && m' 97 == some 289 && m' 161 == some 321 && m' 192 == some 352 &&
        m'' 256 == some (256 + 64) && m'' 289 == some (289 + (33 + 97)) && m'' 321 == some (321 + (129 + 193)))
    | _, _ => false) = true := by decide +kernel

/-! ### C563, C564: one number for each tensor -/

theorem scatter_core [Ring α] {X : CAA} {A D : List Nat} {F : List Nat → List Nat → Cx α} {m : Buf α} (h : X.Is A D F m) {k : Nat} (hk : X.re.k = some k) {C : CA} {G : List Nat → Cx α}
    (hC : C.Is A G m) (ha : ∀ c, X.Owns c → ¬ C.Owns c) :
    ∃ m', X.scatter (fun t c m => t.inplaceTimes c m) C m = .ok m' ∧ X.Becomes A D (fun ia id => G ia * F ia id) m m' := by
  rw [scatter, h.re.aasize]
  apply ccells_core h
  intro ia hi m' hc hm
  have hC' : C.Is A G m' := hC.keep fun c ho => hm c fun o => ha c o ho
  obtain ⟨m'', h1, h2⟩ := CA.C481_times hc (G ia)
  refine ⟨m'', ?_, h2⟩
  rw [cell_eq hk, Res.ok_bind, getC_ok (hC'.has ia hi).1 (hC'.has ia hi).2, Res.ok_bind, h1]

/-- `inplace_scatter_times(C)`. -/
theorem C563_scatterTimes [Ring α] {X : CAA} {A D : List Nat} {F : List Nat → List Nat → Cx α} {m : Buf α} (h : X.Is A D F m) (hk : X.re.k = some D.length) {C : CA} {G : List Nat → Cx α}
    (hC : C.Is A G m) (ha : ∀ c, X.Owns c → ¬ C.Owns c) : ∃ m', X.inplaceScatterTimes C m = .ok m' ∧ X.Becomes A D (fun ia id => G ia * F ia id) m m' := by
  rw [inplaceScatterTimes, decide_eq_true (by rw [h.re.adims, hC.dims]), Res.assrt_true, Res.ok_bind]
  exact scatter_core h hk hC ha

/-- `inplace_scatter_div(C)` multiplies. -/
theorem C564_scatterDiv_fails [Ring α] {X : CAA} {A D : List Nat} {F : List Nat → List Nat → Cx α} {m : Buf α} (h : X.Is A D F m) (hk : X.re.k = some D.length) {C : CA}
    {G : List Nat → Cx α} (hC : C.Is A G m) (ha : ∀ c, X.Owns c → ¬ C.Owns c) :
    ∃ m', X.inplaceScatterDiv C m = .ok m' ∧ X.Becomes A D (fun ia id => G ia * F ia id) m m' := by
  rw [inplaceScatterDiv, decide_eq_true (by rw [h.re.adims, hC.dims]), Res.assrt_true, Res.ok_bind]
  exact scatter_core h hk hC ha

example : (match ex.inplaceScatterTimes ⟨200, 202, [2], [1], 2, 4, 2, -1, false⟩ exM with
    | .ok m' => (m' 1 == some (100 * 1 - 102 * 65) && m' 65 == some (100 * 65 + 102 * 1) && m' 33 == some (101 * 33 - 103 * 97) && m' 97 == some (101 * 97 + 103 * 33))
    | _ => false) = true := by decide +kernel

/-! ### C565: conjugates -/

/-- `conj()` does not make an array with the sizes of `X`: the cells have too many sizes. -/
theorem C565_conj_fails [Neg α] {X : CAA} {A D : List Nat} {F : List Nat → List Nat → Cx α} {m : Buf α} (h : X.Is A D F m) (junk : Nat → α) (q : Nat) {Y : CAA} {m' : Buf α}
    (he : conj junk q X m = .ok (Y, m')) : Y.re.adims = A ∧ Y.re.cdims = A ++ D ∧ Y.re.cdims ≠ X.re.cdims := by
  rw [conj, h.re.adims, h.re.dims, raw_eq h.re.neA (by simp [h.re.neD]), Res.ok_bind] at he
  simp only [Res.bind_eq_ok] at he
  obtain ⟨_, _, _, _, e⟩ := he
  cases e
  refine ⟨rfl, rfl, ?_⟩
  show A ++ D ≠ _
  rw [h.re.cdims]
  intro e
  have := congrArg List.length e
  rw [List.length_append] at this
  exact h.re.neA (List.length_eq_zero_iff.1 (by omega))

theorem cells_le {D E : List Nat} (h : D.prod ≤ E.prod) (h0 : E.prod ≠ 0) : cells D ≤ cells E := by
  unfold cells
  rw [if_neg h0]
  split
  · have : 1 ≤ (E.prod + 31) / 32 := by omega
    omega
  · have : (D.prod + 31) / 32 ≤ (E.prod + 31) / 32 := Nat.div_le_div_right (by omega)
    omega

/-- `conj()`, as far as it goes: the conjugates are stored, at the distances of `X`.  Missing: the array that is returned has other distances between its cells. -/
theorem C565_conj_partial [Neg α] {X : CAA} {A D : List Nat} {F : List Nat → List Nat → Cx α} {m : Buf α} (h : X.Is A D F m) (h0 : A.prod * D.prod ≠ 0) (junk : Nat → α) (q : Nat)
    (hf : Free m q (2 * RAA.room A (A ++ D))) :
    ∃ Y m', conj junk q X m = .ok (Y, m') ∧ Y.re.base.arr = q ∧
      (∀ ia id, InRange ia A → InRange id D → m' (Y.re.base.arr + (position A ia * X.re.cellstride + position D id)) = some (F ia id).re ∧
        m' (Y.arrc + (position A ia * X.re.cellstride + position D id)) = some (-(F ia id).im)) ∧
      ∀ c, ¬ (q ≤ c ∧ c < q + 2 * RAA.room A (A ++ D)) → m' c = m c := by
  have hA : A.prod ≠ 0 := fun z => h0 (by rw [z, Nat.zero_mul])
  have hcl : A.prod * cells D ≤ RAA.room A (A ++ D) := by
    rw [RAA.room, if_neg hA]
    refine Nat.mul_le_mul_left _ (cells_le ?_ (by rw [List.prod_append]; exact h0))
    rw [List.prod_append]
    exact Nat.le_mul_of_pos_left _ (Nat.pos_of_ne_zero hA)
  obtain ⟨g1, hg1, e1⟩ := h.re.flat
  obtain ⟨g2, hg2, e2⟩ := h.im.flat
  have hs := fun c => h.not_free (c := c) hf
  have s1 : ∀ i, i < A.prod * cells D → X.Owns (X.re.base.arr + i) := fun i hi => .inl (h.re.owns hi)
  have s2 : ∀ i, i < A.prod * cells D → X.Owns (X.arrc + i) := fun i hi => .inr (h.im.owns hi)
  generalize hR : RAA.room A (A ++ D) = R at *
  obtain ⟨m1, a1, a2, a3⟩ := stdCopy_ok (allocRaw junk m q (2 * R)) X.re.base.arr (A.prod * cells D) q (RA.flat (A ++ [cells D]) g1 (g1 []))
    (fun i hi => by rw [raw_at _ _ ⟨by omega, by omega⟩]; rfl)
    (fun i hi => by rw [raw_off _ _ (hs _ (s1 i hi))]; exact hg1.at (g1 []) (by rw [RAA.flat_prod]; exact hi))
    (fun i h1 j h2 e => hs _ (s1 j h2) ⟨by omega, by omega⟩)
  have keep1 : ∀ c, X.Owns c → m1 c = m c := fun c o => by rw [a3 c fun i hi e => hs c o ⟨by omega, by omega⟩, raw_off _ _ (hs c o)]
  obtain ⟨m2, b1, b2, b3⟩ := loop_cells (A.prod * cells D) (fun i => q + R + i) (fun i => -(RA.flat (A ++ [cells D]) g2 (g2 []) i)) (fun i m => do
      let t ← m.read (X.arrc + i)
      m.write (q + R + i) (-t)) m1 (fun i _ j _ e => by omega)
    (fun i hi => by rw [a3 _ fun j hj => by omega, raw_at _ _ ⟨by omega, by omega⟩]; rfl)
    (fun i hi m' hm => by
      have e : m' (X.arrc + i) = some (RA.flat (A ++ [cells D]) g2 (g2 []) i) := by
        rw [hm _ fun j hj _ e => hs _ (s2 i hi) ⟨by omega, by omega⟩, keep1 _ (s2 i hi)]
        exact hg2.at (g2 []) (by rw [RAA.flat_prod]; exact hi)
      rw [read_ok e, Res.ok_bind])
  refine ⟨mk0 q A (A ++ D), m2, ?_, rfl, fun ia id a b => ?_, fun c hc => ?_⟩
  · rw [conj, h.re.adims, h.re.dims, raw_eq h.re.neA (by simp [h.re.neD]), Res.ok_bind]
    simp only
    rw [h.re.cst hA, hR]
    have e3 : stdCopy (allocRaw junk m q (2 * R)) X.re.base.arr (A.prod * cells D) (mk0 q A (A ++ D)).re.base.arr = .ok m1 := a1
    rw [e3, Res.ok_bind]
    have e4 : (mk0 q A (A ++ D)).arrc = q + R := by rw [← hR]; rfl
    rw [e4, b1, Res.ok_bind]
  · rw [h.re.cellstride]
    have e4 : (mk0 q A (A ++ D)).arrc = q + R := by rw [← hR]; rfl
    have hl := RAA.lt_of a b
    refine ⟨?_, ?_⟩
    · show m2 (q + _) = _
      rw [b3 _ fun j hj => by omega, a2 _ hl, ← RAA.flat_pos' a, RA.flat_pos (RAA.flat_range a b), e1 ia id a b]
    · rw [e4]
      have := b2 _ hl
      rw [this, ← RAA.flat_pos' a, RA.flat_pos (RAA.flat_range a b), e2 ia id a b]
  · rw [b3 c fun i hi e => hc ⟨by omega, by omega⟩, a3 c fun i hi e => hc ⟨by omega, by omega⟩, raw_off _ _ hc]

/-- In the array that is returned, entry (1,1) of the second cell is a number from the room between the tensors of `ex`. -/
theorem C565_conj_cells_fails : (match conj (fun _ => (9 : Int)) 300 ex exM with
    | .ok (Y, m') => (Y.re.cdims == [2, 2] && (match Y.cell 1 with
        | .ok c => c.arr == 332 && c.get [1, 1] m' == .ok ⟨35, -99⟩
        | _ => false))
    | _ => false) = true := by decide +kernel

/-- On the GPU only the numbers of the first cell are there. -/
theorem C565_gpu_fails : (match gConj (fun _ => (9 : Int)) 300 ex exM with
    | .ok (Y, m') => (Y.arrc == 364 && m' 301 == some 1 && m' 365 == some (-65) && m' 332 == some 0 && m' 396 == some 0)
    | _ => false) = true := by decide +kernel

end CAA

end Cnine
