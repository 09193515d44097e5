import Verif.Spec.CtensorArrayA
import Verif.Lemmas.RtensorArrayA
import Verif.Lemmas.CtensorA

/-!
# Lemmas for arrays of complex tensors of the old backend
-/

namespace Cnine

variable {α : Type}

namespace CAA

open RA

/-- The tensor number `p`. -/
def cellAt (X : CAA) (p : Nat) : CA :=
  ⟨X.re.base.arr + p * X.re.cellstride, X.arrc + p * X.re.cellstride, X.re.cdims, X.re.cstrides, X.re.asize, 2 * X.re.asize, X.re.asize, X.re.nbu, true⟩

theorem cell_eq {X : CAA} {k : Nat} (h : X.re.k = some k) (p : Nat) : X.cell p = .ok (X.cellAt p) := by
  unfold cell; rw [h]; rfl

theorem cell_owns {X : CAA} {p c : Nat} : (X.cellAt p).Owns c ↔ (X.re.cellAt p).Owns c ∨ (X.im.cellAt p).Owns c := Iff.rfl

theorem Is.keep {X : CAA} {A D : List Nat} {F : List Nat → List Nat → Cx α} {m m' : Buf α} (h : X.Is A D F m) (hm : ∀ c, X.Owns c → m' c = m c) : X.Is A D F m' :=
  ⟨h.re.keep fun c hc => hm c (.inl hc), h.im.keep fun c hc => hm c (.inr hc), h.apart⟩

/-- First the real parts, then the imaginary parts. -/
theorem two {X : CAA} {A D : List Nat} {F : List Nat → List Nat → Cx α} {f g : List Nat → List Nat → α} {m m1 m2 : Buf α} (h : X.Is A D F m) (h1 : X.re.Becomes A D f m m1)
    (h2 : X.im.Becomes A D g m1 m2) : X.Becomes A D (fun ia id => ⟨f ia id, g ia id⟩) m m2 :=
  ⟨⟨h1.1.keep fun c hc => h2.2 c (h.apart c hc), h2.1, h.apart⟩, fun c hc => by rw [h2.2 c fun k => hc (.inr k), h1.2 c fun k => hc (.inl k)]⟩

theorem Is.im_after {X : CAA} {A D : List Nat} {F : List Nat → List Nat → Cx α} {f : List Nat → List Nat → α} {m m1 : Buf α} (h : X.Is A D F m) (h1 : X.re.Becomes A D f m m1) :
    X.im.Is A D (fun ia id => (F ia id).im) m1 := h.im.keep fun c hc => h1.2 c fun k => h.apart c k hc

theorem becomes_congr {X : CAA} {A D : List Nat} {F G : List Nat → List Nat → Cx α} {m m' : Buf α} (h : X.Becomes A D F m m')
    (e : ∀ ia id, InRange ia A → InRange id D → F ia id = G ia id) : X.Becomes A D G m m' :=
  ⟨⟨h.1.re.mk' h.1.re.pad fun ia id a b => by rw [← e ia id a b]; exact h.1.re.has ia id a b, h.1.im.mk' h.1.im.pad fun ia id a b => by rw [← e ia id a b]; exact h.1.im.has ia id a b,
    h.1.apart⟩, h.2⟩

theorem Is.cellIs {X : CAA} {A D : List Nat} {F : List Nat → List Nat → Cx α} {m : Buf α} (h : X.Is A D F m) {ia : List Nat} (hi : InRange ia A) :
    (X.cellAt (position A ia)).Is D (F ia) m := by
  have h1 := h.re.cellIs hi
  have h2 := h.im.cellIs hi
  refine ⟨h1.ne, h1.dims, h1.strides, h1.asize, by show D.prod ≤ X.re.asize; rw [h.re.asize], fun id hd => ⟨h1.has id hd, h2.has id hd⟩, fun i j hi' hj' e => ?_⟩
  have o1 : (X.re.cellAt (position A ia)).Owns (X.re.base.arr + position A ia * X.re.cellstride + i) := h1.owns hi'
  have o2 : (X.im.cellAt (position A ia)).Owns (X.arrc + position A ia * X.re.cellstride + j) := h2.owns hj'
  have e : X.re.base.arr + position A ia * X.re.cellstride + i = X.arrc + position A ia * X.re.cellstride + j := e
  rw [e] at o1
  exact h.apart _ (h.re.cellOwns (position_lt hi) o1) (h.im.cellOwns (position_lt hi) o2)

theorem Is.cellOwns {X : CAA} {A D : List Nat} {F : List Nat → List Nat → Cx α} {m : Buf α} (h : X.Is A D F m) {p : Nat} (hp : p < A.prod) {c : Nat}
    (ho : (X.cellAt p).Owns c) : X.Owns c :=
  ho.elim (fun o => .inl (h.re.cellOwns hp o)) fun o => .inr (h.im.cellOwns hp o)

theorem Is.cellApart {X : CAA} {A D : List Nat} {F : List Nat → List Nat → Cx α} {m : Buf α} (h : X.Is A D F m) {p r : Nat} (hp : p < A.prod) (hr : r < A.prod) (hn : p ≠ r) :
    (X.cellAt p).Apart (X.cellAt r) := by
  rintro c (h1 | h1) (h2 | h2)
  · exact h.re.cellApart hn c h1 h2
  · exact h.apart c (h.re.cellOwns hp h1) (h.im.cellOwns hr h2)
  · exact h.apart c (h.re.cellOwns hr h2) (h.im.cellOwns hp h1)
  · exact h.im.cellApart hn c h1 h2

open Classical in
/-- A loop that deals with one tensor in each step. -/
theorem ccells_core {X : CAA} {A D : List Nat} {F : List Nat → List Nat → Cx α} {m : Buf α} (h : X.Is A D F m) (step : Nat → Buf α → Res (Buf α)) (new : List Nat → List Nat → Cx α)
    (hs : ∀ ia, InRange ia A → ∀ m', (X.cellAt (position A ia)).Is D (F ia) m' → (∀ c, ¬ X.Owns c → m' c = m c) →
      ∃ m'', step (position A ia) m' = .ok m'' ∧ (X.cellAt (position A ia)).Becomes D (new ia) m' m'') :
    ∃ m', loop A.prod m step = .ok m' ∧ X.Becomes A D new m m' := by
  have arr : ∀ p, (X.cellAt p).arr = X.re.base.arr + p * cells D := fun p => by rw [← h.re.cellstride]; rfl
  have arrc : ∀ p, (X.cellAt p).arrc = X.arrc + p * cells D := fun p => by rw [← h.re.cellstride]; rfl
  obtain ⟨m', h1, h2, h3⟩ := forM_regions (List.range A.prod) (fun m p => step p m) (fun p c => (X.cellAt p).Owns c)
    (fun p c => if (X.re.cellAt p).Owns c then some (new (nth A p) (nth D (c - (X.re.base.arr + p * cells D)))).re
      else some (new (nth A p) (nth D (c - (X.arrc + p * cells D)))).im) m List.nodup_range
    (fun p hp r hr hn c h1 h2 => h.cellApart (List.mem_range.1 hp) (List.mem_range.1 hr) hn c h1 h2)
    (by
      intro p hp m' hm
      have hp' := List.mem_range.1 hp
      obtain ⟨a1, a2⟩ := nth_range hp'
      have hc := h.cellIs a1
      rw [a2] at hc
      obtain ⟨m'', e1, e2⟩ := hs (nth A p) a1 m' (by
          rw [a2]
          exact hc.keep fun c ho => hm c fun r hr' hr ho' => h.cellApart (List.mem_range.1 hr') hp' hr c ho' ho)
        fun c hc => hm c fun r hr _ ho => hc (h.cellOwns (List.mem_range.1 hr) ho)
      rw [a2] at e1 e2
      have hsz : (X.cellAt p).asize = D.prod := h.re.asize
      refine ⟨m'', e1, fun c ho => ?_, e2.2⟩
      by_cases hre : (X.re.cellAt p).Owns c
      · rw [if_pos hre]
        obtain ⟨o1, o2⟩ : (X.cellAt p).arr ≤ c ∧ c < (X.cellAt p).arr + (X.cellAt p).asize := hre
        rw [arr] at o1 o2
        obtain ⟨id, d1, d2⟩ := GT.surj (show c - (X.re.base.arr + p * cells D) < D.prod by rw [hsz] at o2; omega)
        have := (e2.1.has id d1).1
        rw [arr, d2, show X.re.base.arr + p * cells D + (c - (X.re.base.arr + p * cells D)) = c by omega] at this
        rw [this, ← d2, nth_pos d1]
      · rw [if_neg hre]
        rcases ho with ho | ho
        · exact absurd ho hre
        obtain ⟨o1, o2⟩ := ho
        rw [arrc] at o1 o2
        obtain ⟨id, d1, d2⟩ := GT.surj (show c - (X.arrc + p * cells D) < D.prod by rw [hsz] at o2; omega)
        have := (e2.1.has id d1).2
        rw [arrc, d2, show X.arrc + p * cells D + (c - (X.arrc + p * cells D)) = c by omega] at this
        rw [this, ← d2, nth_pos d1])
  have pad : ∀ c, (m c).isSome → (m' c).isSome := by
    intro c hc
    by_cases g : ∃ p ∈ List.range A.prod, (X.cellAt p).Owns c
    · obtain ⟨p, g1, g2⟩ := g
      rw [h2 p g1 _ g2]
      split <;> rfl
    · rw [h3 _ fun p hp ho => g ⟨p, hp, ho⟩]; exact hc
  refine ⟨m', h1, ⟨h.re.mk' (fun c hc => pad _ (h.re.pad c hc)) fun ia id a b => ?_, h.im.mk' (fun c hc => pad _ (h.im.pad c hc)) fun ia id a b => ?_, h.apart⟩,
    fun c hc => h3 c fun p hp ho => hc (h.cellOwns (List.mem_range.1 hp) ho)⟩
  · have hp := List.mem_range.2 (position_lt a)
    have ho : (X.re.cellAt (position A ia)).Owns (X.re.base.arr + position A ia * cells D + position D id) := by
      have := (h.re.cellIs a).owns (position_lt b)
      rwa [show (X.re.cellAt (position A ia)).arr = X.re.base.arr + position A ia * cells D by rw [← h.re.cellstride]; rfl] at this
    rw [← Nat.add_assoc, h2 _ hp _ (.inl ho), if_pos ho, nth_pos a, Nat.add_sub_cancel_left, nth_pos b]
  · have hp := List.mem_range.2 (position_lt a)
    have ho : (X.im.cellAt (position A ia)).Owns (X.arrc + position A ia * cells D + position D id) := by
      have := (h.im.cellIs a).owns (position_lt b)
      rwa [show (X.im.cellAt (position A ia)).arr = X.arrc + position A ia * cells D by rw [← h.re.cellstride]; rfl] at this
    rw [← Nat.add_assoc]
    show m' (X.arrc + position A ia * cells D + position D id) = _
    rw [h2 _ hp _ (.inr ho), if_neg fun o => h.apart _ (h.re.cellOwns (position_lt a) o) (h.im.cellOwns (position_lt a) ho), nth_pos a, Nat.add_sub_cancel_left, nth_pos b]

/-! ### New arrays -/

/-- The memory of the imaginary part of a cell of the array. -/
theorem apart_x {X : CAA} {x : CA} (ha : ∀ c, X.Owns c → ¬ x.Owns c) :
    (∀ c, X.re.Owns c → ¬ x.re.Owns c) ∧ (∀ c, X.re.Owns c → ¬ x.im.Owns c) ∧ (∀ c, X.im.Owns c → ¬ x.re.Owns c) ∧ ∀ c, X.im.Owns c → ¬ x.im.Owns c :=
  ⟨fun c a b => ha c (.inl a) (.inl b), fun c a b => ha c (.inl a) (.inr b), fun c a b => ha c (.inr a) (.inl b), fun c a b => ha c (.inr a) (.inr b)⟩

end CAA

end Cnine
