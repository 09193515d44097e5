import Verif.Spec.CtensorA
import Verif.Lemmas.CView
import Verif.Lemmas.Weave
import Verif.Props.RtensorA

/-! Complex tensors of the old backend as pairs of real ones. -/

namespace Cnine

variable {α : Type}

namespace CA

open RA (cells Free flat)

theorem Is.re {x : CA} {D : List Nat} {F : List Nat → Cx α} {m : Buf α} (h : x.Is D F m) : x.re.Is D (fun ix => (F ix).re) m :=
  ⟨h.ne, h.dims, h.strides, h.asize, h.room, fun ix hi => (h.has ix hi).1⟩

theorem Is.im {x : CA} {D : List Nat} {F : List Nat → Cx α} {m : Buf α} (h : x.Is D F m) : x.im.Is D (fun ix => (F ix).im) m :=
  ⟨h.ne, h.dims, h.strides, h.asize, h.room, fun ix hi => (h.has ix hi).2⟩

/-- From the two parts. -/
theorem Is.of {x : CA} {D : List Nat} {F G : List Nat → Cx α} {m m' : Buf α} (h : x.Is D F m) (h1 : x.re.Is D (fun ix => (G ix).re) m')
    (h2 : x.im.Is D (fun ix => (G ix).im) m') : x.Is D G m' :=
  ⟨h.ne, h.dims, h.strides, h.asize, h.room, fun ix hi => ⟨h1.has ix hi, h2.has ix hi⟩, h.apart⟩

theorem owns_iff {x : CA} {c : Nat} : x.Owns c ↔ x.re.Owns c ∨ x.im.Owns c := Iff.rfl

theorem Is.parts {x : CA} {D : List Nat} {F : List Nat → Cx α} {m : Buf α} (h : x.Is D F m) : x.re.Apart x.im := by
  rintro c ⟨c1, c2⟩ ⟨d1, d2⟩
  have ha := h.asize
  simp only [CA.re, CA.im] at c1 c2 d1 d2
  exact h.apart (c - x.arr) (c - x.arrc) (by omega) (by omega) (by omega)

theorem Is.parts' {x : CA} {D : List Nat} {F : List Nat → Cx α} {m : Buf α} (h : x.Is D F m) : x.im.Apart x.re := fun c h1 h2 => h.parts c h2 h1

theorem Apart.parts {x y : CA} (h : x.Apart y) : x.re.Apart y.re ∧ x.re.Apart y.im ∧ x.im.Apart y.re ∧ x.im.Apart y.im :=
  ⟨fun c a b => h c (.inl a) (.inl b), fun c a b => h c (.inl a) (.inr b), fun c a b => h c (.inr a) (.inl b), fun c a b => h c (.inr a) (.inr b)⟩

theorem Is.keep {x : CA} {D : List Nat} {F : List Nat → Cx α} {m m' : Buf α} (h : x.Is D F m) (hm : ∀ c, x.Owns c → m' c = m c) : x.Is D F m' :=
  h.of (h.re.keep fun c hc => hm c (.inl hc)) (h.im.keep fun c hc => hm c (.inr hc))

/-- First the real parts, then the imaginary parts. -/
theorem two {x : CA} {D : List Nat} {F : List Nat → Cx α} {f g : List Nat → α} {m m1 m2 : Buf α} (h : x.Is D F m) (h1 : x.re.Becomes D f m m1)
    (h2 : x.im.Becomes D g m1 m2) : x.Becomes D (fun ix => ⟨f ix, g ix⟩) m m2 :=
  ⟨h.of (h1.1.keep fun c hc => h2.2 c (h.parts c hc)) h2.1, fun c hc => by
    rw [h2.2 c fun k => hc (.inr k), h1.2 c fun k => hc (.inl k)]⟩

/-- The imaginary parts after a change of the real parts. -/
theorem Is.im_after {x : CA} {D : List Nat} {F : List Nat → Cx α} {f : List Nat → α} {m m1 : Buf α} (h : x.Is D F m) (h1 : x.re.Becomes D f m m1) :
    x.im.Is D (fun ix => (F ix).im) m1 := h.im.keep fun c hc => h1.2 c (h.parts' c hc)

theorem becomes_congr {x : CA} {D : List Nat} {F G : List Nat → Cx α} {m m' : Buf α} (h : x.Becomes D F m m') (e : ∀ ix, InRange ix D → F ix = G ix) :
    x.Becomes D G m m' :=
  ⟨⟨h.1.ne, h.1.dims, h.1.strides, h.1.asize, h.1.room, fun ix hi => by rw [← e ix hi]; exact h.1.has ix hi, h.1.apart⟩, h.2⟩

/-- Another tensor after a change of this one. -/
theorem Is.stays {r x : CA} {D E : List Nat} {F G : List Nat → Cx α} {m m' : Buf α} (hx : x.Is E G m) (h : r.Becomes D F m m') (ha : r.Apart x) : x.Is E G m' :=
  hx.keep fun c hc => h.2 c fun k => ha c k hc

/-- The imaginary parts of an operand, after a change of the real parts of the result. -/
theorem im_operand {r x : CA} {D E : List Nat} {F G : List Nat → Cx α} {f : List Nat → α} {m m1 : Buf α} (hr : r.Is D F m) (hx : x.Is E G m)
    (h1 : r.re.Becomes D f m m1) (he : D.prod = E.prod) (ha : r.Apart x ∨ r.Same x) : x.im.Is E (fun ix => (G ix).im) m1 :=
  hx.im.keep fun c hc => h1.2 c fun k => by
    rcases ha with ha | ha
    · exact ha.parts.2.1 c k hc
    · refine hr.parts c k ?_
      have e1 := hr.asize; have e2 := hx.asize
      obtain ⟨c1, c2⟩ := hc
      simp only [CA.im] at c1 c2
      exact ⟨by simp only [CA.im]; rw [ha.2]; exact c1, by simp only [CA.im]; rw [ha.2]; omega⟩

theorem meets_re {r x : CA} (ha : r.Apart x ∨ r.Same x) : r.re.Apart x.re ∨ r.re.arr = x.re.arr := ha.imp (fun h => h.parts.1) fun h => h.1

theorem meets_im {r x : CA} (ha : r.Apart x ∨ r.Same x) : r.im.Apart x.im ∨ r.im.arr = x.im.arr := ha.imp (fun h => h.parts.2.2.2) fun h => h.2

/-! ### New tensors -/

/-- The tensor that `raw` makes. -/
def mk0 (q : Nat) (D : List Nat) : CA := ⟨q, q + cells D, D, rmStrides D, D.prod, 2 * cells D, cells D, -1, false⟩

theorem raw_ok {D : List Nat} (h : D ≠ []) (junk : Nat → α) (q : Nat) (m : Buf α) :
    raw junk q D m = .ok (mk0 q D, allocRaw junk m q (2 * cells D)) := by
  rw [raw, RA.noalloc_ok h, Res.ok_bind]; rfl

theorem mk0_is {D : List Nat} (h : D ≠ []) {F : List Nat → Cx α} {m : Buf α} (q : Nat)
    (hm : ∀ ix, InRange ix D → m (q + position D ix) = some (F ix).re ∧ m (q + cells D + position D ix) = some (F ix).im) : (mk0 q D).Is D F m :=
  ⟨h, rfl, (compact_rm D).symm, rfl, (RA.cells_pos D).2, hm, fun i j hi hj => by have := (RA.cells_pos D).2; simp only [mk0]; omega⟩

theorem raw_is {D : List Nat} (h : D ≠ []) (junk : Nat → α) (q : Nat) (m : Buf α) :
    (mk0 q D).Is D (fun ix => ⟨junk (q + position D ix), junk (q + cells D + position D ix)⟩) (allocRaw junk m q (2 * cells D)) :=
  mk0_is h q fun ix hi => by
    have := position_lt hi; have := (RA.cells_pos D).2
    exact ⟨RA.raw_at _ _ ⟨by omega, by omega⟩, RA.raw_at _ _ ⟨by omega, by omega⟩⟩

theorem owns_mk0 {q : Nat} {D : List Nat} {c : Nat} (h : (mk0 q D).Owns c) : q ≤ c ∧ c < q + 2 * cells D := by
  have := (RA.cells_pos D).2
  simp only [mk0, Owns] at h
  omega

theorem fresh_of {D : List Nat} {q : Nat} {F : List Nat → Cx α} {junk : Nat → α} {m m' : Buf α}
    (h : (mk0 q D).Becomes D F (allocRaw junk m q (2 * cells D)) m') : (mk0 q D).Fresh q D F m m' :=
  ⟨rfl, rfl, h.1, fun c hc => by rw [h.2 c fun k => hc (owns_mk0 k), RA.raw_off _ _ hc]⟩

/-- Allocated cells are not in free memory. -/
theorem Is.not_free {x : CA} {D : List Nat} {F : List Nat → Cx α} {m : Buf α} (h : x.Is D F m) {q n c : Nat} (hf : Free m q n) (hc : x.Owns c) :
    ¬ (q ≤ c ∧ c < q + n) := by
  rcases hc with hc | hc
  · exact h.re.not_free hf hc
  · exact h.im.not_free hf hc

/-- An old tensor, after a new one is allocated. -/
theorem Is.old {x : CA} {D : List Nat} {F : List Nat → Cx α} {m : Buf α} (h : x.Is D F m) {q n : Nat} (hf : Free m q n) (junk : Nat → α) :
    x.Is D F (allocRaw junk m q n) := h.keep fun _ hc => RA.raw_off _ _ (h.not_free hf hc)

theorem Is.apart_mk0 {x : CA} {D E : List Nat} {F : List Nat → Cx α} {m : Buf α} (h : x.Is D F m) {q : Nat} (hf : Free m q (2 * cells E)) :
    (mk0 q E).Apart x := fun _ hc hx => h.not_free hf hx (owns_mk0 hc)

/-! ### Loops over all numbers -/

/-- The number at a place of the arrays. -/
theorem Is.at {x : CA} {D : List Nat} {F : List Nat → Cx α} {m : Buf α} (h : x.Is D F m) (d : Cx α) {i : Nat} (hi : i < D.prod) :
    m (x.arr + i) = some (flat D F d i).re ∧ m (x.arrc + i) = some (flat D F d i).im := by
  obtain ⟨ix, h1, rfl⟩ := GT.surj hi
  rw [RA.flat_pos h1]
  exact h.has ix h1

theorem Is.get_at {x : CA} {D : List Nat} {F : List Nat → Cx α} {m : Buf α} (h : x.Is D F m) (d : Cx α) {i : Nat} (hi : i < D.prod) :
    getC (x.arr + i) (x.arrc + i) m = .ok (flat D F d i) := getC_ok (h.at d hi).1 (h.at d hi).2

theorem Is.owns {x : CA} {D : List Nat} {F : List Nat → Cx α} {m : Buf α} (h : x.Is D F m) {i : Nat} (hi : i < D.prod) :
    x.Owns (x.arr + i) ∧ x.Owns (x.arrc + i) := ⟨.inl (h.re.owns hi), .inr (h.im.owns hi)⟩

/-- A loop over some distinct places that stores one number at each: `idx` lists the rounds, `p` gives the places. -/
theorem run {x : CA} {D : List Nat} {F : List Nat → Cx α} {m : Buf α} (h : x.Is D F m) {ι : Type} (l : List ι) (hn : l.Nodup) (p : ι → Nat)
    (hp : ∀ i ∈ l, p i < D.prod) (hi : ∀ i ∈ l, ∀ j ∈ l, p i = p j → i = j) (new : ι → Cx α) (step : Buf α → ι → Res (Buf α))
    (hs : ∀ i ∈ l, ∀ m' : Buf α, (∀ c, (∀ j ∈ l, j ≠ i → c ≠ x.arr + p j ∧ c ≠ x.arrc + p j) → m' c = m c) →
      step m' i = setC (x.arr + p i) (x.arrc + p i) (new i) m') :
    ∃ m', Res.forM l m step = .ok m' ∧ (∀ i ∈ l, m' (x.arr + p i) = some (new i).re ∧ m' (x.arrc + p i) = some (new i).im) ∧
      ∀ c, (∀ i ∈ l, c ≠ x.arr + p i ∧ c ≠ x.arrc + p i) → m' c = m c :=
  ccells_run l (fun i => x.arr + p i) (fun i => x.arrc + p i) new step m hn (fun i a j b e => hi i a j b (by omega)) (fun i a j b e => hi i a j b (by omega))
    (fun i a j b => h.apart _ _ (hp i a) (hp j b))
    (fun i a => by
      have := h.at (new i) (hp i a)
      rw [this.1, this.2]; exact ⟨rfl, rfl⟩) hs

theorem all_run {x : CA} {D : List Nat} {F : List Nat → Cx α} {m : Buf α} (h : x.Is D F m) (new : Nat → Cx α) (step : Nat → Buf α → Res (Buf α))
    (hs : ∀ i, i < D.prod → ∀ m' : Buf α, (∀ c, (∀ j, j < D.prod → j ≠ i → c ≠ x.arr + j ∧ c ≠ x.arrc + j) → m' c = m c) →
      step i m' = setC (x.arr + i) (x.arrc + i) (new i) m') :
    ∃ m', loop D.prod m step = .ok m' ∧ x.Becomes D (fun ix => new (position D ix)) m m' := by
  obtain ⟨m', h1, h2, h3⟩ := run h (List.range D.prod) List.nodup_range (fun i => i) (fun i hi => List.mem_range.1 hi) (fun _ _ _ _ e => e) new
    (fun m i => step i m) (fun i hi m' hm => hs i (List.mem_range.1 hi) m' fun c hc => hm c fun j hj => hc j (List.mem_range.1 hj))
  refine ⟨m', h1, ⟨h.ne, h.dims, h.strides, h.asize, h.room, fun ix hi => h2 _ (List.mem_range.2 (position_lt hi)), h.apart⟩, fun c hc => h3 c fun i hi => ?_⟩
  have := h.owns (List.mem_range.1 hi)
  exact ⟨fun e => hc (e ▸ this.1), fun e => hc (e ▸ this.2)⟩

end CA

end Cnine
