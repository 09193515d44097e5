import Verif.Model.BGtensor
import Verif.Props.Index
import Verif.Lemmas.View
import Verif.Lemmas.Elem
import Verif.Lemmas.Regions
import Verif.Spec.Elem

/-! # Access to the parts of a BGtensor, and the loop over its cells -/

namespace Cnine

variable {α : Type _}

/-- The index loop visits all indices. -/
theorem decode_loop {σ : Type _} (gd : List Nat) (m : σ) (f : List Nat → σ → Res σ) :
    loop (asize gd) m (fun i m => do let ix ← decode i gd; f ix m) = Res.forM (allIndices gd) m fun m ix => f ix m := by
  rw [loop, asize_eq, ← map_position_allIndices, forM_map]
  apply forM_congr
  intro ix hix s
  have hix := mem_allIndices.1 hix
  have hpos : ∀ d ∈ gd, 0 < d := by
    intro d hd
    obtain ⟨i, hi⟩ := List.mem_iff_getElem.1 hd
    obtain ⟨hi, rfl⟩ := hi
    have := List.Forall₂.get hix (i := i) (by rw [hix.length]; exact hi) hi
    simp only [List.get_eq_getElem] at this
    omega
  obtain ⟨jx, h1, h2, h3⟩ := decode_ok (position gd ix) gd hpos
  rw [h1, Res.ok_bind, position_inj h2 hix (by rw [h3, Nat.mod_eq_of_lt (position_lt hix)])]

namespace BG

/-- One stride per axis, and as many axes as there are grid axes besides the batch axis. -/
def Ok (x : BG) : Prop := x.v.WF ∧ x.ng + 1 ≤ x.v.dims.length

instance (x : BG) : Decidable x.Ok := inferInstanceAs (Decidable (_ ∧ _))

/-- Batch size, grid dims, cell dims and the strides belonging to them. -/
def b (x : BG) : Nat := x.v.dims.headD 0
def g (x : BG) : List Nat := (x.v.dims.drop 1).take x.ng
def c (x : BG) : List Nat := x.v.dims.drop (x.ng + 1)
def bs (x : BG) : Nat := x.v.strides.headD 0
def gs (x : BG) : List Nat := (x.v.strides.drop 1).take x.ng
def cs (x : BG) : List Nat := x.v.strides.drop (x.ng + 1)

/-- The address of element `(b,gx,cx)`, where an operand without batch (or grid) is repeated. -/
def elt (x : BG) (b : Nat) (gx cx : List Nat) : Nat :=
  x.v.cell ((if x.b = 1 then 0 else b) :: ((if x.ng = 0 then [] else gx) ++ cx))

/-- The cell at `(b,gx)`. -/
def cellView (x : BG) (b : Nat) (gx : List Nat) : View := ⟨x.elt b gx [], x.c, x.cs⟩

variable {x : BG}

theorem Ok.split (h : x.Ok) : x.v.dims = x.b :: (x.g ++ x.c) ∧ x.v.strides = x.bs :: (x.gs ++ x.cs) ∧
    x.g.length = x.ng ∧ x.gs.length = x.ng ∧ x.cs.length = x.c.length := by
  obtain ⟨⟨off, dims, strides⟩, ng⟩ := x
  obtain ⟨h1, h2⟩ := h
  change strides.length = dims.length at h1
  change ng + 1 ≤ dims.length at h2
  simp only [b, g, c, bs, gs, cs]
  match dims, strides with
  | [], _ => simp at h2
  | _ :: _, [] => simp at h1
  | d :: ds, s :: ss =>
    simp only [List.length_cons] at h1 h2
    simp [List.take_append_drop]
    omega

theorem Ok.getb (h : x.Ok) : x.getb = .ok x.b := by
  obtain ⟨h1, -⟩ := h.split
  simp [BG.getb, Res.get, h1]

theorem Ok.bstride (h : x.Ok) : x.bstride = .ok x.bs := by
  obtain ⟨-, h1, -⟩ := h.split
  simp [BG.bstride, Res.get, h1]

theorem chunk_mid (a : α) (l k : List α) : gvChunk (a :: (l ++ k)) 1 l.length = .ok l := by
  have h1 : ¬ ((1 : Int) < 0) := by omega
  have h2 : ¬ ((l.length : Int) = -1) := by omega
  have h3 : ¬ ((l.length : Int) < 0) := by omega
  have h4 : ¬ ((1 : Int) < 0 ∨ ((a :: (l ++ k)).length : Int) < 1 + l.length) := by
    simp only [List.length_cons, List.length_append]; omega
  simp only [gvChunk, if_neg h1, if_neg h2, if_neg h3, if_neg h4]
  simp

theorem chunk_end (a : α) (l k : List α) : gvChunk (a :: (l ++ k)) (1 + l.length : Nat) (-1) = .ok k := by
  have h1 : ¬ (((1 + l.length : Nat) : Int) < 0) := by omega
  simp only [gvChunk, if_neg h1, if_true]
  have h3 : ((a :: (l ++ k)).length : Int) - ((1 + l.length : Nat) : Int) = (k.length : Int) := by
    simp only [List.length_cons, List.length_append]; omega
  rw [h3, if_neg (by omega), if_neg (by simp only [List.length_cons, List.length_append]; omega)]
  simp [Nat.add_comm 1 l.length]

theorem Ok.gdims (h : x.Ok) : x.gdims = .ok x.g := by
  obtain ⟨h1, -, h3, -⟩ := h.split
  rw [BG.gdims, h1, ← h3]; exact chunk_mid _ _ _

theorem Ok.gstrides (h : x.Ok) : x.gstrides = .ok x.gs := by
  obtain ⟨-, h1, -, h3, -⟩ := h.split
  rw [BG.gstrides, h1, ← h3]; exact chunk_mid _ _ _

theorem Ok.hasCells (h : x.Ok) : x.hasCells = true ↔ x.c ≠ [] := by
  obtain ⟨h1, -, h3, -⟩ := h.split
  unfold BG.hasCells
  rw [h1, decide_eq_true_eq]
  simp only [List.length_cons, List.length_append, h3, ne_eq, ← List.length_eq_zero_iff]
  omega

theorem Ok.cdims (h : x.Ok) : x.cdims = .ok x.c := by
  obtain ⟨h1, -, h3, -⟩ := h.split
  unfold BG.cdims
  split
  · rw [h1, ← h3]; exact chunk_end _ _ _
  · rename_i hc
    rw [h.hasCells, not_not] at hc
    rw [hc]

theorem Ok.cstrides (h : x.Ok) : x.cstrides = .ok x.cs := by
  obtain ⟨-, h1, -, h3, h4⟩ := h.split
  unfold BG.cstrides
  split
  · rw [h1, ← h3]; exact chunk_end _ _ _
  · rename_i hc
    rw [h.hasCells, not_not] at hc
    rw [hc] at h4
    rw [List.length_eq_zero_iff.1 h4]

theorem Ok.elt_eq (h : x.Ok) (b : Nat) (gx cx : List Nat) (hg : x.ng = 0 ∨ gx.length = x.ng) :
    x.elt b gx cx = x.v.off + x.bs * (if x.b = 1 then 0 else b) + (if x.ng = 0 then 0 else dot x.gs gx) + dot x.cs cx := by
  obtain ⟨-, h2, -, h4, -⟩ := h.split
  have hl : x.gs.length = (if x.ng = 0 then [] else gx).length := by
    split
    · simp only [List.length_nil]; omega
    · rename_i hn
      rcases hg with e | e
      · exact absurd e hn
      · omega
  have e : dot x.gs (if x.ng = 0 then [] else gx) = if x.ng = 0 then 0 else dot x.gs gx := by
    split
    · rw [dot_nil_right]
    · rfl
  rw [elt, View.cell, h2, dot_cons, dot_append _ _ _ _ hl, e]
  omega

theorem Ok.cellView_cell (h : x.Ok) (b : Nat) (gx cx : List Nat) (hg : x.ng = 0 ∨ gx.length = x.ng) :
    (x.cellView b gx).cell cx = x.elt b gx cx := by
  rw [h.elt_eq b gx cx hg, View.cell]
  simp only [cellView]
  rw [h.elt_eq b gx [] hg, dot_nil_right]
  omega

theorem Ok.cellView_wf (h : x.Ok) (b : Nat) (gx : List Nat) : (x.cellView b gx).WF := by
  obtain ⟨-, -, -, -, h5⟩ := h.split
  exact h5

/-- An operand takes part in a product of `B` batches and the grid `g`. -/
def Fits (x : BG) (B : Nat) (g : List Nat) : Prop := (x.b = B ∨ x.b = 1) ∧ (x.g = g ∨ x.g = [])

theorem Ok.fits_len (h : x.Ok) {B : Nat} {g : List Nat} (hf : x.Fits B g) {gx : List Nat} (hgx : InRange gx g) :
    x.ng = 0 ∨ gx.length = x.ng := by
  obtain ⟨-, -, h3, -⟩ := h.split
  rcases hf.2 with e | e
  · right; rw [hgx.length, ← e, h3]
  · left; rw [← h3, e]; rfl

theorem Ok.arg_cell (h : x.Ok) {B : Nat} {g : List Nat} (hf : x.Fits B g) (hb : 0 < x.b) (n : Nat) (hn : n = g.length) :
    ∃ a, x.arg n = .ok a ∧ ∀ b gx, InRange gx g → a.cell b gx = .ok (x.elt b gx []) := by
  obtain ⟨-, -, h3, h4, -⟩ := h.split
  have hbs : (if 1 < x.b then x.bs else 0) = if x.b = 1 then 0 else x.bs := by
    by_cases e : x.b = 1
    · simp [e]
    · rw [if_pos (by omega), if_neg e]
  by_cases hg : 0 < x.ng
  · refine ⟨⟨x.v.off, if 1 < x.b then x.bs else 0, x.gs⟩, ?_, ?_⟩
    · simp [arg, hg, h.gstrides, h.bstride, h.getb]
    · intro b gx hgx
      have hl := h.fits_len hf hgx
      have hl' : gx.length = x.ng := by omega
      rw [CellArg.cell, offs_eq _ _ (by simp only; omega), Res.ok_bind, h.elt_eq b gx [] hl, dot_nil_right]
      simp only [hbs, if_neg (show ¬ x.ng = 0 by omega)]
      congr 1
      split <;> simp
  · refine ⟨⟨x.v.off, if 1 < x.b then x.bs else 0, List.replicate n 0⟩, ?_, ?_⟩
    · simp [arg, hg, h.bstride, h.getb]
    · intro b gx hgx
      have hl := h.fits_len hf hgx
      have h0 : ∀ (k : Nat) (gx : List Nat), dot (List.replicate k 0) gx = 0 := by
        intro k
        induction k with
        | zero => intro gx; simp
        | succ k ih =>
          intro gx
          cases gx with
          | nil => simp
          | cons i is => simp [List.replicate_succ, ih]
      rw [CellArg.cell, offs_eq _ _ (by simp [hgx.length, hn]), Res.ok_bind, h.elt_eq b gx [] hl, dot_nil_right, h0]
      simp only [hbs, if_pos (show x.ng = 0 by omega)]
      congr 1
      split <;> simp

theorem Ok.sliceb (h : x.Ok) (hb : 0 < x.b) (hn : x.ng = 0) (b : Nat) : x.sliceb b = .ok (x.cellView b []) := by
  obtain ⟨h1, h2, h3, h4, -⟩ := h.split
  have hg : x.g = [] := List.length_eq_zero_iff.1 (by omega)
  have hgs : x.gs = [] := List.length_eq_zero_iff.1 (by omega)
  have e0 : (if 1 < x.b then b else 0) = if x.b = 1 then 0 else b := by
    by_cases e : x.b = 1
    · simp [e]
    · rw [if_pos (by omega), if_neg e]
  unfold BG.sliceb View.slice cellView
  rw [h.getb, h.elt_eq b [] [] (Or.inl hn), hn, Res.ok_bind, e0]
  simp [h1, h2, hg, hgs, Res.get, gvRemove]

end BG

/-- The size all operands agree on: one of them has it, the others too or are 1. -/
def CommonB (l : List Nat) (B : Nat) : Prop := B ∈ l ∧ ∀ b ∈ l, b = B ∨ b = 1

/-- The grid all operands agree on: one of them has it, the others too or have none. -/
def CommonG (l : List (List Nat)) (g : List Nat) : Prop := g ∈ l ∧ ∀ h ∈ l, h = g ∨ h = []

instance (l : List Nat) (B : Nat) : Decidable (CommonB l B) := inferInstanceAs (Decidable (_ ∧ _))
instance (l : List (List Nat)) (g : List Nat) : Decidable (CommonG l g) := inferInstanceAs (Decidable (_ ∧ _))

theorem domBatch3_ok {xb yb zb B : Nat} (h : CommonB [xb, yb, zb] B) (hx : 0 < xb) (hy : 0 < yb) (hz : 0 < zb) :
    domBatch3 xb yb zb = .ok B := by
  simp only [CommonB, List.mem_cons, List.not_mem_nil, or_false, forall_eq_or_imp, forall_eq] at h
  obtain ⟨h0, h1, h2, h3⟩ := h
  simp only [domBatch3, hx, hy, hz, decide_true, Bool.and_true, Res.assrt_true, Res.ok_bind]
  by_cases eB : B = 1
  · subst eB
    have : xb = 1 := by omega
    have : yb = 1 := by omega
    have : zb = 1 := by omega
    subst_vars
    simp [gt1]
  · have hB : 1 < B := by omega
    rcases h1 with rfl | rfl <;> rcases h2 with rfl | rfl <;> rcases h3 with rfl | rfl <;>
      first | (exfalso; omega) | simp [gt1, hB, eB]

theorem domG3_ok {xg yg : List Nat} (zg : List Nat) {g : List Nat} (h : CommonG [xg, yg] g) : domG3 xg yg zg = .ok g := by
  simp only [CommonG, List.mem_cons, List.not_mem_nil, or_false, forall_eq_or_imp, forall_eq] at h
  obtain ⟨h0, h1, h2⟩ := h
  by_cases eg : g = []
  · subst eg
    have hx : xg = [] := by simpa using h1
    have hy : yg = [] := by simpa using h2
    subst hx hy
    simp [domG3, some1]
  · have hl : 0 < g.length := List.length_pos_iff.2 eg
    rcases h1 with rfl | rfl <;> rcases h2 with rfl | rfl
    · simp [domG3, some1, hl]
    · simp [domG3, some1, hl]
    · simp [domG3, some1, hl]
    · rcases h0 with e | e <;> exact absurd e eg

/-- `for_each_cell_multi` calls the function once per batch and grid point, with the cells there. -/
theorem BG.forEach3_eq {σ : Type _} {x y z : BG} (hx : x.Ok) (hy : y.Ok) (hz : z.Ok) {B : Nat} {g : List Nat}
    (hB : CommonB [x.b, y.b, z.b] B) (h0 : 0 < x.b ∧ 0 < y.b ∧ 0 < z.b) (hg : CommonG [x.g, y.g] g) (hzg : z.g = g ∨ z.g = [])
    (lam : Nat → List Nat → View → View → View → σ → Res σ) (m : σ) :
    BG.forEach3 x y z lam m = Res.forM (List.range B) m fun m b => Res.forM (allIndices g) m fun m gx =>
      lam b gx (x.cellView b gx) (y.cellView b gx) (z.cellView b gx) m := by
  have fx : x.Fits B g := ⟨hB.2 _ (by simp), hg.2 _ (by simp)⟩
  have fy : y.Fits B g := ⟨hB.2 _ (by simp), hg.2 _ (by simp)⟩
  have fz : z.Fits B g := ⟨hB.2 _ (by simp), hzg⟩
  unfold forEach3
  rw [hx.getb, hy.getb, hz.getb, Res.ok_bind, Res.ok_bind, Res.ok_bind, domBatch3_ok hB h0.1 h0.2.1 h0.2.2, Res.ok_bind,
    hx.gdims, hy.gdims, hz.gdims, Res.ok_bind, Res.ok_bind, Res.ok_bind, domG3_ok z.g hg, Res.ok_bind]
  by_cases eg : g.length = 0
  · have : g = [] := List.length_eq_zero_iff.1 eg
    subst this
    have n0 : ∀ {w : BG}, w.Ok → w.Fits B [] → w.ng = 0 := by
      intro w hw hf
      obtain ⟨-, -, h3, -⟩ := hw.split
      rcases hf.2 with e | e <;> rw [← h3, e] <;> rfl
    rw [if_pos (show ([] : List Nat).length = 0 from rfl), loop]
    apply forM_congr
    intro b hb s
    rw [hx.sliceb h0.1 (n0 hx fx), hy.sliceb h0.2.1 (n0 hy fy), hz.sliceb h0.2.2 (n0 hz fz), Res.ok_bind, Res.ok_bind, Res.ok_bind]
    simp only [allIndices, Res.forM_cons, Res.forM_nil]
    cases lam b [] (x.cellView b []) (y.cellView b []) (z.cellView b []) s <;> rfl
  · rw [if_neg eg]
    obtain ⟨xa, ex, kx⟩ := hx.arg_cell fx h0.1 g.length rfl
    obtain ⟨ya, ey, ky⟩ := hy.arg_cell fy h0.2.1 g.length rfl
    obtain ⟨za, ez, kz⟩ := hz.arg_cell fz h0.2.2 g.length rfl
    simp only [hx.cdims, hx.cstrides, hy.cdims, hy.cstrides, hz.cdims, hz.cstrides, ex, ey, ez, Res.ok_bind]
    rw [loop]
    apply forM_congr
    intro b hb s
    refine (decode_loop g s (fun ix m => do
      let px ← xa.cell b ix
      let py ← ya.cell b ix
      let pz ← za.cell b ix
      lam b ix ⟨px, x.c, x.cs⟩ ⟨py, y.c, y.cs⟩ ⟨pz, z.c, z.cs⟩ m)).trans ?_
    apply forM_congr
    intro ix hix s
    have hix := mem_allIndices.1 hix
    rw [kx b ix hix, ky b ix hix, kz b ix hix]
    rfl

/-- `for_each_cell_multi_scalar`: likewise, the third operand by its element. -/
theorem BG.forEach3s_eq {σ : Type _} {x y z : BG} (hx : x.Ok) (hy : y.Ok) (hz : z.Ok) (hzc : z.c = []) {B : Nat} {g : List Nat}
    (hB : CommonB [x.b, y.b, z.b] B) (h0 : 0 < x.b ∧ 0 < y.b ∧ 0 < z.b) (hg : CommonG [x.g, y.g] g) (hzg : z.g = g ∨ z.g = [])
    (lam : Nat → List Nat → View → View → Nat → σ → Res σ) (m : σ) :
    BG.forEach3s x y z lam m = Res.forM (List.range B) m fun m b => Res.forM (allIndices g) m fun m gx =>
      lam b gx (x.cellView b gx) (y.cellView b gx) (z.elt b gx []) m := by
  have fx : x.Fits B g := ⟨hB.2 _ (by simp), hg.2 _ (by simp)⟩
  have fy : y.Fits B g := ⟨hB.2 _ (by simp), hg.2 _ (by simp)⟩
  have fz : z.Fits B g := ⟨hB.2 _ (by simp), hzg⟩
  unfold forEach3s
  rw [hx.getb, hy.getb, hz.getb, Res.ok_bind, Res.ok_bind, Res.ok_bind, domBatch3_ok hB h0.1 h0.2.1 h0.2.2, Res.ok_bind,
    hx.gdims, hy.gdims, hz.gdims, Res.ok_bind, Res.ok_bind, Res.ok_bind, domG3_ok z.g hg, Res.ok_bind]
  by_cases eg : g.length = 0
  · have : g = [] := List.length_eq_zero_iff.1 eg
    subst this
    have n0 : ∀ {w : BG}, w.Ok → w.Fits B [] → w.ng = 0 := by
      intro w hw hf
      obtain ⟨-, -, h3, -⟩ := hw.split
      rcases hf.2 with e | e <;> rw [← h3, e] <;> rfl
    rw [if_pos (show ([] : List Nat).length = 0 from rfl), loop]
    apply forM_congr
    intro b hb s
    obtain ⟨-, h2, h3, h4, h5⟩ := hz.split
    have e1 : z.v.at1 (if 1 < z.b then b else 0) = .ok (z.elt b [] []) := by
      have e0 : (if 1 < z.b then b else 0) = if z.b = 1 then 0 else b := by
        by_cases e : z.b = 1
        · simp [e]
        · rw [if_pos (by omega), if_neg e]
      rw [hz.elt_eq b [] [] (Or.inl (n0 hz fz)), View.at1, h2, e0]
      simp [Res.get, n0 hz fz, Nat.mul_comm]
    rw [hx.sliceb h0.1 (n0 hx fx), hy.sliceb h0.2.1 (n0 hy fy), e1, Res.ok_bind, Res.ok_bind, Res.ok_bind]
    simp only [allIndices, Res.forM_cons, Res.forM_nil]
    cases lam b [] (x.cellView b []) (y.cellView b []) (z.elt b [] []) s <;> rfl
  · rw [if_neg eg]
    obtain ⟨xa, ex, kx⟩ := hx.arg_cell fx h0.1 g.length rfl
    obtain ⟨ya, ey, ky⟩ := hy.arg_cell fy h0.2.1 g.length rfl
    obtain ⟨za, ez, kz⟩ := hz.arg_cell fz h0.2.2 g.length rfl
    simp only [hx.cdims, hx.cstrides, hy.cdims, hy.cstrides, ex, ey, ez, Res.ok_bind]
    rw [loop]
    apply forM_congr
    intro b hb s
    refine (decode_loop g s (fun ix m => do
      let px ← xa.cell b ix
      let py ← ya.cell b ix
      let pz ← za.cell b ix
      lam b ix ⟨px, x.c, x.cs⟩ ⟨py, y.c, y.cs⟩ pz m)).trans ?_
    apply forM_congr
    intro ix hix s
    have hix := mem_allIndices.1 hix
    rw [kx b ix hix, ky b ix hix, kz b ix hix]
    rfl

end Cnine
