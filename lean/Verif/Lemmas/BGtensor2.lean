import Verif.Lemmas.BGtensor
import Verif.Lemmas.RView
import Mathlib.Data.List.ProdSigma

/-! # Writing all cells of a BGtensor -/

namespace Cnine

variable {α : Type _}

namespace BG

/-- Element `(b,gx,cx)` is `X b gx cx`. -/
def Has (x : BG) (m : Buf α) (X : Nat → List Nat → List Nat → α) : Prop :=
  ∀ b, b < x.b → ∀ gx, InRange gx x.g → ∀ cx, InRange cx x.c → m (x.v.cell (b :: (gx ++ cx))) = some (X b gx cx)

/-- The tensor holds `X` afterwards and no other cell changed. -/
def Becomes (x : BG) (m m' : Buf α) (X : Nat → List Nat → List Nat → α) : Prop :=
  x.Has m' X ∧ ∀ c, (∀ ix, InRange ix x.v.dims → c ≠ x.v.cell ix) → m' c = m c

/-- The contents `X` of `x` repeated along the batch, grid and cell axes that `x` lacks. -/
def rep (x : BG) (X : Nat → List Nat → List Nat → α) (b : Nat) (gx cx : List Nat) : α :=
  X (if x.b = 1 then 0 else b) (if x.g = [] then [] else gx) (if x.c = [] then [] else cx)

variable {r x : BG}

theorem Ok.inRange (h : x.Ok) {b : Nat} {gx cx : List Nat} (hb : b < x.b) (hg : InRange gx x.g) (hc : InRange cx x.c) :
    InRange (b :: (gx ++ cx)) x.v.dims := by
  rw [h.split.1]
  exact inRange_cons.2 ⟨hb, (inRange_append hg.length).2 ⟨hg, hc⟩⟩

theorem Ok.ng_iff (h : x.Ok) : x.ng = 0 ↔ x.g = [] := by
  obtain ⟨-, -, h3, -⟩ := h.split
  rw [← h3, List.length_eq_zero_iff]

theorem Ok.elt_self (h : x.Ok) {b : Nat} {gx : List Nat} (hb : b < x.b) (hg : InRange gx x.g) (cx : List Nat) :
    x.elt b gx cx = x.v.cell (b :: (gx ++ cx)) := by
  unfold elt
  have e1 : (if x.b = 1 then 0 else b) = b := by split <;> omega
  have e2 : (if x.ng = 0 then [] else gx) = gx := by
    split
    · rename_i e
      rw [h.ng_iff.1 e] at hg
      exact (List.length_eq_zero_iff.1 hg.length).symm
    · rfl
  rw [e1, e2]

/-- The broadcast address is an element of the operand. -/
theorem Ok.elt_bc (h : x.Ok) {B : Nat} {g : List Nat} (hf : x.Fits B g) (h0 : 0 < x.b) {b : Nat} {gx cx : List Nat} (hb : b < B)
    (hg : InRange gx g) (hc : InRange cx x.c) :
    ∃ b' gx', b' < x.b ∧ InRange gx' x.g ∧ b' = (if x.b = 1 then 0 else b) ∧ gx' = (if x.g = [] then [] else gx) ∧
      x.elt b gx cx = x.v.cell (b' :: (gx' ++ cx)) := by
  refine ⟨if x.b = 1 then 0 else b, if x.g = [] then [] else gx, ?_, ?_, rfl, rfl, ?_⟩
  · rcases hf.1 with e | e <;> split <;> omega
  · split
    · rename_i e; rw [e]; exact inRange_nil
    · rename_i e
      rcases hf.2 with k | k
      · rw [k]; exact hg
      · exact absurd k e
  · unfold elt
    simp only [h.ng_iff]

theorem Ok.val_bc (h : x.Ok) {B : Nat} {g : List Nat} (hf : x.Fits B g) (h0 : 0 < x.b) {m : Buf α}
    {X : Nat → List Nat → List Nat → α} (hX : x.Has m X) {b : Nat} {gx cx : List Nat} (hb : b < B)
    (hg : InRange gx g) (hc : InRange cx x.c) (hcx : x.c = [] → cx = []) : m (x.elt b gx cx) = some (x.rep X b gx cx) := by
  obtain ⟨b', gx', h1, h2, e1, e2, e3⟩ := h.elt_bc hf h0 hb hg hc
  rw [e3, hX b' h1 gx' h2 cx hc, rep, e1, e2]
  by_cases e : x.c = []
  · rw [if_pos e, hcx e]
  · rw [if_neg e]

/-- Running a body over all cells of `r`, where the body updates its cell from what it had before. -/
theorem cells_core (hr : r.Ok) (hd : r.v.Distinct) (m0 : Buf α) (body : Nat → List Nat → Buf α → Res (Buf α))
    (new : Nat → List Nat → List Nat → α)
    (hbody : ∀ b, b < r.b → ∀ gx, InRange gx r.g → ∀ m : Buf α,
      (∀ cx, InRange cx r.c → m (r.elt b gx cx) = m0 (r.elt b gx cx)) →
      (∀ c, (∀ ix, InRange ix r.v.dims → c ≠ r.v.cell ix) → m c = m0 c) →
      ∃ m', body b gx m = .ok m' ∧ Updated (r.cellView b gx) (fun cx => some (new b gx cx)) m m') :
    ∃ m', (Res.forM (List.range r.b) m0 fun m b => Res.forM (allIndices r.g) m fun m gx => body b gx m) = .ok m' ∧
      r.Becomes m0 m' new := by
  classical
  have inj : ∀ b gx cx b' gx' cx', b < r.b → InRange gx r.g → InRange cx r.c → b' < r.b → InRange gx' r.g → InRange cx' r.c →
      r.elt b gx cx = r.elt b' gx' cx' → b = b' ∧ gx = gx' ∧ cx = cx' := by
    intro b gx cx b' gx' cx' h1 h2 h3 h4 h5 h6 e
    rw [hr.elt_self h1 h2, hr.elt_self h4 h5] at e
    have := hd _ _ (hr.inRange h1 h2 h3) (hr.inRange h4 h5 h6) e
    rw [List.cons.injEq] at this
    obtain ⟨k1, k2⟩ := this
    have := List.append_inj k2 (by rw [h2.length, h5.length])
    exact ⟨k1, this.1, this.2⟩
  let l := (List.range r.b).product (allIndices r.g)
  have hl : ∀ p : Nat × List Nat, p ∈ l ↔ p.1 < r.b ∧ InRange p.2 r.g := by
    rintro ⟨b, gx⟩
    rw [show l = (List.range r.b) ×ˢ (allIndices r.g) from rfl, List.mem_product, List.mem_range, mem_allIndices]
  have hw : ∀ b gx, b < r.b → InRange gx r.g → ∀ cx, (r.cellView b gx).cell cx = r.elt b gx cx := by
    intro b gx hb hg cx
    exact hr.cellView_cell b gx cx (Or.inr (by rw [hg.length, hr.split.2.2.1]))
  obtain ⟨m', g1, g2, g3⟩ := forM_regions l (fun m p => body p.1 p.2 m)
    (fun p c => ∃ cx, InRange cx r.c ∧ c = r.elt p.1 p.2 cx)
    (fun p c => if h : ∃ cx, InRange cx r.c ∧ c = r.elt p.1 p.2 cx then some (new p.1 p.2 h.choose) else none) m0
    (List.nodup_range.product (allIndices_nodup _))
    (by
      rintro ⟨b, gx⟩ hp ⟨b', gx'⟩ hq hne c ⟨cx, hcx, rfl⟩ ⟨cx', hcx', e⟩
      have hp := (hl _).1 hp
      have hq := (hl _).1 hq
      obtain ⟨rfl, rfl, -⟩ := inj _ _ _ _ _ _ hp.1 hp.2 hcx hq.1 hq.2 hcx' e
      exact hne rfl)
    (by
      rintro ⟨b, gx⟩ hp m hm
      have hp := (hl _).1 hp
      obtain ⟨m', k1, k2, k3⟩ := hbody b hp.1 gx hp.2 m
        (fun cx hcx => hm _ (by
          rintro ⟨b', gx'⟩ hq hne ⟨cx', hcx', e⟩
          have hq := (hl _).1 hq
          obtain ⟨rfl, rfl, -⟩ := inj _ _ _ _ _ _ hp.1 hp.2 hcx hq.1 hq.2 hcx' e
          exact hne rfl))
        (fun c hc => hm _ (by
          rintro ⟨b', gx'⟩ hq hne ⟨cx', hcx', e⟩
          have hq := (hl _).1 hq
          rw [hr.elt_self hq.1 hq.2] at e
          exact hc _ (hr.inRange hq.1 hq.2 hcx') e))
      refine ⟨m', k1, ?_, ?_⟩
      · rintro c ⟨cx, hcx, rfl⟩
        have hex : ∃ cx', InRange cx' r.c ∧ r.elt b gx cx = r.elt b gx cx' := ⟨cx, hcx, rfl⟩
        have hs := hex.choose_spec
        obtain ⟨-, -, e⟩ := inj _ _ _ _ _ _ hp.1 hp.2 hcx hp.1 hp.2 hs.1 hs.2
        have k := k2 cx hcx
        rw [hw b gx hp.1 hp.2] at k
        rw [dif_pos hex, ← e]
        exact k
      · intro c hc
        apply k3
        intro cx hcx e
        exact hc ⟨cx, hcx, by rw [e, hw b gx hp.1 hp.2]⟩)
  refine ⟨m', ?_, ?_, ?_⟩
  · rw [← g1]
    simp only [l, List.product, forM_flatMap, forM_map]
  · intro b hb gx hg cx hc
    have := g2 (b, gx) ((hl _).2 ⟨hb, hg⟩) (r.elt b gx cx) ⟨cx, hc, rfl⟩
    rw [hr.elt_self hb hg] at this
    rw [this]
    have hex : ∃ cx', InRange cx' r.c ∧ r.v.cell (b :: (gx ++ cx)) = r.elt b gx cx' := ⟨cx, hc, (hr.elt_self hb hg cx).symm⟩
    have hs := hex.choose_spec
    obtain ⟨-, -, e⟩ := inj b gx cx b gx _ hb hg hc hb hg hs.1 (by rw [hr.elt_self hb hg]; exact hs.2)
    rw [dif_pos hex, ← e]
  · intro c hc
    apply g3
    rintro ⟨b, gx⟩ hp ⟨cx, hcx, e⟩
    have hp := (hl _).1 hp
    rw [hr.elt_self hp.1 hp.2] at e
    exact hc _ (hr.inRange hp.1 hp.2 hcx) e

/-- A cell of `r` and a cell of an operand of the same shape as views. -/
theorem Ok.cellView_distinct (hr : r.Ok) (hd : r.v.Distinct) {b : Nat} {gx : List Nat} (hb : b < r.b) (hg : InRange gx r.g) :
    (r.cellView b gx).Distinct := by
  intro cx cx' h1 h2 e
  have hn : r.ng = 0 ∨ gx.length = r.ng := Or.inr (by rw [hg.length, hr.split.2.2.1])
  rw [hr.cellView_cell b gx _ hn, hr.cellView_cell b gx _ hn, hr.elt_self hb hg, hr.elt_self hb hg] at e
  have := hd _ _ (hr.inRange hb hg h1) (hr.inRange hb hg h2) e
  rw [List.cons.injEq] at this
  exact (List.append_inj this.2 rfl).2

theorem cellView_apart (hr : r.Ok) (hx : x.Ok) (ha : r.v.Apart x.v) {g : List Nat} {B : Nat} (hf : x.Fits B g) (h0 : 0 < x.b)
    (hB : r.b = B) (hgg : r.g = g)
    {b : Nat} {gx : List Nat} (hb : b < r.b) (hg : InRange gx r.g) : (r.cellView b gx).Apart (x.cellView b gx) := by
  intro cx cx' h1 h2 e
  subst hB hgg
  have hn : r.ng = 0 ∨ gx.length = r.ng := Or.inr (by rw [hg.length, hr.split.2.2.1])
  rw [hr.cellView_cell b gx _ hn, hx.cellView_cell b gx _ (hx.fits_len hf hg), hr.elt_self hb hg] at e
  obtain ⟨b', gx', k1, k2, -, -, k3⟩ := hx.elt_bc hf h0 hb hg h2
  rw [k3] at e
  exact ha _ _ (hr.inRange hb hg h1) (hx.inRange k1 k2 h2) e

end BG
end Cnine
