import Verif.Props.BGtensor
import Verif.Props.Assign
import Verif.Props.Cumul
import Verif.Props.RView3
import Mathlib.Tactic.Ring

/-! # C147–C152 products, division and matrix products of BGtensors -/

namespace Cnine

namespace BG

variable {α : Type}

/-! ## The result tensor -/

/-- No element of `x` lies in the block of `n` cells at `q`. -/
def Clear (x : BG) (q n : Nat) : Prop := ∀ ix, InRange ix x.v.dims → x.v.cell ix < q ∨ q + n ≤ x.v.cell ix

section
variable {q n : Nat} {gd cd : List Nat}

theorem make_parts (q n : Nat) (gd cd : List Nat) : (make q n gd cd).Ok ∧ (make q n gd cd).b = n ∧ (make q n gd cd).g = gd ∧
    (make q n gd cd).c = cd := by
  refine ⟨(C145_make q n gd cd).1, rfl, ?_, ?_⟩
  · simp [make, g]
  · simp [make, c]

theorem make_cell {ix : List Nat} (h : InRange ix (make q n gd cd).v.dims) :
    (make q n gd cd).v.cell ix = q + position (n :: (gd ++ cd)) ix := by
  have hl : ix.length = (n :: (gd ++ cd)).length := h.length
  simp only [make, View.cell, List.cons_append]
  rw [dot_rmStrides _ _ hl]

theorem make_distinct : (make q n gd cd).v.Distinct := by
  intro ix jx hi hj e
  rw [make_cell hi, make_cell hj] at e
  exact position_inj (dims := n :: (gd ++ cd)) hi hj (by omega)

theorem make_lt {ix : List Nat} (h : InRange ix (make q n gd cd).v.dims) :
    q ≤ (make q n gd cd).v.cell ix ∧ (make q n gd cd).v.cell ix < q + asize (n :: gd ++ cd) := by
  rw [make_cell h, asize_eq]
  have : position (n :: (gd ++ cd)) ix < (n :: (gd ++ cd)).prod := position_lt h
  rw [List.cons_append]
  omega

theorem make_apart {x : BG} (h : x.Clear q (asize (n :: gd ++ cd))) : (make q n gd cd).v.Apart x.v := by
  intro ix jx hi hj e
  have h1 := make_lt hi
  have h2 := h jx hj
  omega

theorem make_zero [Zero α] (m : Buf α) : (make q n gd cd).Has (allocZero m q (asize (n :: gd ++ cd))) fun _ _ _ => 0 := by
  intro i hi gx hg cx hc
  have hok := (make_parts q n gd cd).1
  have h := make_lt (hok.inRange hi hg hc)
  rw [allocZero, if_pos h]

theorem alloc_has [Zero α] {x : BG} (hx : x.Ok) {m : Buf α} {k : Nat} (h : x.Clear q k) {X : Nat → List Nat → List Nat → α}
    (hX : x.Has m X) : x.Has (allocZero m q k) X := by
  intro i hi gx hg cx hc
  have := h _ (hx.inRange hi hg hc)
  rw [allocZero, if_neg (by omega)]
  exact hX i hi gx hg cx hc

/-- Writing only the new block keeps everything outside it. -/
theorem alloc_frame [Zero α] {m m' : Buf α} {Z : Nat → List Nat → List Nat → α}
    (h : (make q n gd cd).Becomes (allocZero m q (asize (n :: gd ++ cd))) m' Z) :
    ∀ a, a < q ∨ q + asize (n :: gd ++ cd) ≤ a → m' a = m a := by
  intro a ha
  rw [h.2 a fun ix hix e => ?_, allocZero, if_neg (by omega)]
  have := make_lt hix
  omega

end

/-! ## Element-wise updates of all cells -/

section
variable {r x y : BG}

/-- Contents seen through a cell view. -/
theorem cell_vals (hx : x.Ok) {B : Nat} {G : List Nat} (hf : x.Fits B G) (h0 : 0 < x.b) {m : Buf α}
    {X : Nat → List Nat → List Nat → α} (hX : x.Has m X) {b : Nat} {gx : List Nat} (hb : b < B) (hg : InRange gx G) (cx : List Nat)
    (hc : InRange cx x.c) : m ((x.cellView b gx).cell cx) = some (x.rep X b gx cx) := by
  rw [hx.cellView_cell b gx cx (hx.fits_len hf hg)]
  exact hx.val_bc hf h0 hX hb hg hc (fun e => by rw [e] at hc; exact List.length_eq_zero_iff.1 hc.length)

/-- Memory that agrees outside `r` shows the same contents of an operand apart from `r`. -/
theorem has_outside (hx : x.Ok) (ha : r.v.Apart x.v) {m0 m : Buf α} {X : Nat → List Nat → List Nat → α} (hX : x.Has m0 X)
    (hm : ∀ c, (∀ ix, InRange ix r.v.dims → c ≠ r.v.cell ix) → m c = m0 c) : x.Has m X := by
  intro i hi gx hg cx hc
  rw [hm _ fun ix hix e => ha ix _ hix (hx.inRange hi hg hc) e.symm]
  exact hX i hi gx hg cx hc

theorem own_vals (hr : r.Ok) {m0 m : Buf α} {R : Nat → List Nat → List Nat → α} (hR : r.Has m0 R) {b : Nat} {gx : List Nat}
    (hb : b < r.b) (hg : InRange gx r.g) (hm : ∀ cx, InRange cx r.c → m (r.elt b gx cx) = m0 (r.elt b gx cx)) (cx : List Nat)
    (hc : InRange cx r.c) : m ((r.cellView b gx).cell cx) = some (R b gx cx) := by
  rw [hr.cellView_cell b gx cx (Or.inr (by rw [hg.length, hr.split.2.2.1])), hm cx hc, hr.elt_self hb hg]
  exact hR b hb gx hg cx hc

theorem apart_aligned {u v : View} (h : u.Apart v) : u.Aligned v := fun ix jx hi hj e => absurd e (h ix jx hi hj)

/-- Scaled addition in every cell; `f` is what is made of the factor. -/
theorem scale_cells [Add α] [Mul α] (f : α → α) (hr : r.Ok) (hx : x.Ok) (hy : y.Ok) (hyc : y.c = []) (hc : x.c = r.c)
    (hB : CommonB [x.b, y.b] r.b) (hG : CommonG [x.g, y.g] r.g) (h0 : 0 < x.b ∧ 0 < y.b) (hd : r.v.Distinct)
    (hxa : r.v.Apart x.v) (hya : r.v.Apart y.v) (m : Buf α) (R X Y : Nat → List Nat → List Nat → α) (hR : r.Has m R)
    (hX : x.Has m X) (hY : y.Has m Y) :
    ∃ m', forEach3s r x y (fun _ _ r x p m => scaleBody f r x p m) m = .ok m' ∧
      r.Becomes m m' fun b gx cx => R b gx cx + f (y.rep Y b gx cx) * x.rep X b gx cx := by
  have fx : x.Fits r.b r.g := ⟨hB.2 _ (by simp), hG.2 _ (by simp)⟩
  have fy : y.Fits r.b r.g := ⟨hB.2 _ (by simp), hG.2 _ (by simp)⟩
  have hrb : 0 < r.b := by
    have := hB.1
    simp only [List.mem_cons, List.not_mem_nil, or_false] at this
    omega
  rw [forEach3s_eq hr hx hy hyc (B := r.b) (g := r.g)
    ⟨by simp, by simp only [List.mem_cons, List.not_mem_nil, or_false, forall_eq_or_imp, forall_eq]; exact ⟨Or.inl trivial, fx.1, fy.1⟩⟩
    ⟨hrb, h0⟩ ⟨by simp, by simp only [List.mem_cons, List.not_mem_nil, or_false, forall_eq_or_imp, forall_eq]; exact ⟨Or.inl trivial, fx.2⟩⟩ fy.2]
  apply cells_core hr hd m (fun b gx m => scaleBody f (r.cellView b gx) (x.cellView b gx) (y.elt b gx []) m)
  intro b hb gx hg m1 h1 h2
  have hX1 := has_outside hx hxa hX h2
  have hY1 := has_outside hy hya hY h2
  have hyv : m1 (y.elt b gx []) = some (y.rep Y b gx []) := by
    refine hy.val_bc fy h0.2 hY1 hb hg ?_ (fun _ => rfl)
    rw [hyc]; exact inRange_nil
  have hap := cellView_apart hr hx hxa fx h0.1 rfl rfl hb hg
  obtain ⟨m', k1, k2, k3⟩ := C17_add_scaled (fun a b' => a + f (y.rep Y b gx []) * b') (r.cellView b gx) (x.cellView b gx)
    (hr.cellView_wf b gx) (hx.cellView_wf b gx) hc.symm (hr.cellView_distinct hd hb hg) (apart_aligned hap) m1
    (fun cx hcx => by rw [own_vals hr hR hb hg h1 cx hcx]; rfl)
    (fun cx hcx => by rw [cell_vals hx fx h0.1 hX1 hb hg cx hcx]; rfl)
  refine ⟨m', ?_, ?_, k3⟩
  · simp only [scaleBody, Buf.read, hyv, Res.ok_bind]
    exact k1
  · intro cx hcx
    rw [k2 cx hcx]
    simp only [View.val]
    rw [own_vals hr hR hb hg h1 cx hcx, cell_vals hx fx h0.1 hX1 hb hg cx (hc ▸ hcx)]
    have : y.rep Y b gx cx = y.rep Y b gx [] := by simp [rep, hyc]
    rw [this]
    rfl

/-- `add_prod` where at least one operand has cells. -/
theorem addProd_ok [Add α] [CommMagma α] (hr : r.Ok) (hx : x.Ok) (hy : y.Ok) (hB : CommonB [x.b, y.b] r.b)
    (hG : CommonG [x.g, y.g] r.g) (hC : CommonG [x.c, y.c] r.c) (hc0 : r.c ≠ []) (h0 : 0 < x.b ∧ 0 < y.b) (hd : r.v.Distinct)
    (hxa : r.v.Apart x.v) (hya : r.v.Apart y.v) (m : Buf α) (R X Y : Nat → List Nat → List Nat → α) (hR : r.Has m R)
    (hX : x.Has m X) (hY : y.Has m Y) :
    ∃ m', addProd r x y m = .ok m' ∧ r.Becomes m m' fun b gx cx => R b gx cx + x.rep X b gx cx * y.rep Y b gx cx := by
  have hrc : r.hasCells = true := hr.hasCells.2 hc0
  have cases' : x.hasCells = true ∨ y.hasCells = true := by
    have := hC.1
    simp only [List.mem_cons, List.not_mem_nil, or_false] at this
    rcases this with e | e
    · left; rw [hx.hasCells, ← e]; exact hc0
    · right; rw [hy.hasCells, ← e]; exact hc0
  have nlt : ¬ x.hasCells.toNat + y.hasCells.toNat + r.hasCells.toNat < 2 := by
    rw [hrc]
    rcases cases' with e | e <;> rw [e] <;> simp
  unfold addProd
  rw [if_neg nlt]
  by_cases hxc : x.hasCells = true
  · rw [if_neg (by simpa using hxc)]
    have exc : x.c = r.c := (hC.2 x.c (by simp)).resolve_right (hx.hasCells.1 hxc)
    by_cases hyc : y.hasCells = true
    · rw [if_neg (by simpa using hyc)]
      have eyc : y.c = r.c := (hC.2 y.c (by simp)).resolve_right (hy.hasCells.1 hyc)
      have fx : x.Fits r.b r.g := ⟨hB.2 _ (by simp), hG.2 _ (by simp)⟩
      have fy : y.Fits r.b r.g := ⟨hB.2 _ (by simp), hG.2 _ (by simp)⟩
      have hrb : 0 < r.b := by
        have := hB.1
        simp only [List.mem_cons, List.not_mem_nil, or_false] at this
        omega
      rw [forEach3_eq hr hx hy (B := r.b) (g := r.g)
        ⟨by simp, by simp only [List.mem_cons, List.not_mem_nil, or_false, forall_eq_or_imp, forall_eq]; exact ⟨Or.inl trivial, fx.1, fy.1⟩⟩
        ⟨hrb, h0⟩ ⟨by simp, by simp only [List.mem_cons, List.not_mem_nil, or_false, forall_eq_or_imp, forall_eq]; exact ⟨Or.inl trivial, fx.2⟩⟩ fy.2]
      apply cells_core hr hd m
        (fun b gx m => View.addProd (fun a b c => a + b * c) (r.cellView b gx) (x.cellView b gx) (y.cellView b gx) m)
      intro b hb gx hg m1 h1 h2
      have hX1 := has_outside hx hxa hX h2
      have hY1 := has_outside hy hya hY h2
      obtain ⟨m', k1, k2, k3⟩ := C80_add_prod (fun a b c => a + b * c) (r.cellView b gx) (x.cellView b gx) (y.cellView b gx)
        (hr.cellView_wf b gx) (hx.cellView_wf b gx) (hy.cellView_wf b gx) exc.symm eyc.symm (hr.cellView_distinct hd hb hg)
        (apart_aligned (cellView_apart hr hx hxa fx h0.1 rfl rfl hb hg))
        (apart_aligned (cellView_apart hr hy hya fy h0.2 rfl rfl hb hg)) m1
        (fun cx hcx => by rw [own_vals hr hR hb hg h1 cx hcx]; rfl)
        (fun cx hcx => by rw [cell_vals hx fx h0.1 hX1 hb hg cx hcx]; rfl)
        (fun cx hcx => by rw [cell_vals hy fy h0.2 hY1 hb hg cx hcx]; rfl)
      refine ⟨m', k1, ?_, k3⟩
      intro cx hcx
      rw [k2 cx hcx]
      simp only [View.val]
      rw [own_vals hr hR hb hg h1 cx hcx, cell_vals hx fx h0.1 hX1 hb hg cx (exc ▸ hcx),
        cell_vals hy fy h0.2 hY1 hb hg cx (eyc ▸ hcx)]
      rfl
    · rw [if_pos (by simpa using hyc)]
      have eyc : y.c = [] := by rw [hy.hasCells, not_not] at hyc; exact hyc
      obtain ⟨m', k1, k2, k3⟩ := scale_cells id hr hx hy eyc exc hB hG h0 hd hxa hya m R X Y hR hX hY
      refine ⟨m', k1, fun b hb gx hg cx hc => ?_, k3⟩
      rw [k2 b hb gx hg cx hc]
      dsimp only [id]
      rw [mul_comm (x.rep X b gx cx)]
  · rw [if_pos (by simpa using hxc)]
    have exc : x.c = [] := by rw [hx.hasCells, not_not] at hxc; exact hxc
    have eyc : y.c = r.c := (hC.2 y.c (by simp)).resolve_right (hy.hasCells.1 (cases'.resolve_left hxc))
    obtain ⟨m', k1, k2, k3⟩ := scale_cells id hr hy hx exc eyc
      ⟨by have := hB.1; simp only [List.mem_cons, List.not_mem_nil, or_false] at this ⊢; omega,
       by have := hB.2; simp only [List.mem_cons, List.not_mem_nil, or_false, forall_eq_or_imp, forall_eq] at this ⊢; omega⟩
      ⟨by have := hG.1; simp only [List.mem_cons, List.not_mem_nil, or_false] at this ⊢; exact this.symm,
       by have := hG.2; simp only [List.mem_cons, List.not_mem_nil, or_false, forall_eq_or_imp, forall_eq] at this ⊢; exact this.symm⟩
      h0.symm hd hya hxa m R Y X hR hY hX
    exact ⟨m', k1, k2, k3⟩

/-! ## Matrix products of cells -/

theorem view2_ok (v : View) (hv : v.WF) (n0 n1 : Nat) (hd : v.dims = [n0, n1]) :
    ∃ s0 s1, view2 v = .ok ⟨v.off, n0, n1, s0, s1⟩ ∧
      ∀ i j, (⟨v.off, n0, n1, s0, s1⟩ : RV2).cell i j = v.cell [i, j] := by
  obtain ⟨off, dims, strides⟩ := v
  subst hd
  match strides, hv with
  | [s0, s1], _ =>
    refine ⟨s0, s1, by simp [view2, Res.get], fun i j => ?_⟩
    simp [RV2.cell, View.cell]

theorem inRange2 {i j n0 n1 : Nat} : InRange [i, j] [n0, n1] ↔ i < n0 ∧ j < n1 := by
  simp [InRange]

theorem inRange2_ex {cx : List Nat} {n0 n1 : Nat} (h : InRange cx [n0, n1]) : ∃ i j, cx = [i, j] ∧ i < n0 ∧ j < n1 := by
  match cx, h.length with
  | [i, j], _ => exact ⟨i, j, rfl, inRange2.1 h⟩

/-- A function of row and column as one of the cell index. -/
def two (f : Nat → Nat → α) (cx : List Nat) : α := f (cx.getD 0 0) (cx.getD 1 0)

theorem viewMprod_ok [NonUnitalNonAssocSemiring α] (r x y : View) (hr : r.WF) (hx : x.WF) (hy : y.WF) {n k l : Nat}
    (dr : r.dims = [n, l]) (dx : x.dims = [n, k]) (dy : y.dims = [k, l]) (hd : r.Distinct) (hxa : r.Apart x) (hya : r.Apart y)
    (m : Buf α) (R X Y : Nat → Nat → α) (hR : ∀ i, i < n → ∀ j, j < l → m (r.cell [i, j]) = some (R i j))
    (hX : ∀ i, i < n → ∀ j, j < k → m (x.cell [i, j]) = some (X i j))
    (hY : ∀ i, i < k → ∀ j, j < l → m (y.cell [i, j]) = some (Y i j)) :
    ∃ m', viewMprod r x y m = .ok m' ∧
      Updated r (fun cx => some (two (fun i j => R i j + ((List.range k).map fun a => X i a * Y a j).sum) cx)) m m' := by
  obtain ⟨r0, r1, er, cr⟩ := view2_ok r hr _ _ dr
  obtain ⟨x0, x1, ex, cx⟩ := view2_ok x hx _ _ dx
  obtain ⟨y0, y1, ey, cy⟩ := view2_ok y hy _ _ dy
  obtain ⟨m', k1, k2, k3⟩ := C134_AA (⟨r.off, n, l, r0, r1⟩ : RV2) ⟨x.off, n, k, x0, x1⟩ ⟨y.off, k, l, y0, y1⟩ rfl rfl rfl
    (by
      intro i hi j hj a ha b hb e
      rw [cr, cr] at e
      have := hd _ _ (dr ▸ inRange2.2 ⟨hi, hj⟩) (dr ▸ inRange2.2 ⟨ha, hb⟩) e
      simpa using this)
    (by
      intro i hi j hj a ha b hb e
      rw [cr, cx] at e
      exact hxa _ _ (dr ▸ inRange2.2 ⟨hi, hj⟩) (dx ▸ inRange2.2 ⟨ha, hb⟩) e)
    (by
      intro i hi j hj a ha b hb e
      rw [cr, cy] at e
      exact hya _ _ (dr ▸ inRange2.2 ⟨hi, hj⟩) (dy ▸ inRange2.2 ⟨ha, hb⟩) e) m R X Y
    (fun i hi j hj => by rw [cr]; exact hR i hi j hj) (fun i hi j hj => by rw [cx]; exact hX i hi j hj)
    (fun i hi j hj => by rw [cy]; exact hY i hi j hj)
  refine ⟨m', ?_, ?_, ?_⟩
  · unfold viewMprod
    rw [er, ex, ey, dr, dx, dy]
    simpa [Res.get] using k1
  · intro ix hix
    obtain ⟨i, j, rfl, hi, hj⟩ := inRange2_ex (dr ▸ hix)
    have := k2 i hi j hj
    rw [cr] at this
    rw [this]; rfl
  · intro c hc
    apply k3
    intro i hi j hj
    rw [cr]
    exact hc _ (dr ▸ inRange2.2 ⟨hi, hj⟩)

theorem viewMprodAH_ok [NonUnitalNonAssocSemiring α] (r x y : View) (hr : r.WF) (hx : x.WF) (hy : y.WF) {n k l : Nat}
    (dr : r.dims = [n, l]) (dx : x.dims = [n, k]) (dy : y.dims = [l, k]) (hd : r.Distinct) (hxa : r.Apart x) (hya : r.Apart y)
    (m : Buf α) (R X Y : Nat → Nat → α) (hR : ∀ i, i < n → ∀ j, j < l → m (r.cell [i, j]) = some (R i j))
    (hX : ∀ i, i < n → ∀ j, j < k → m (x.cell [i, j]) = some (X i j))
    (hY : ∀ i, i < l → ∀ j, j < k → m (y.cell [i, j]) = some (Y i j)) :
    ∃ m', viewMprodAH r x y m = .ok m' ∧
      Updated r (fun cx => some (two (fun i j => R i j + ((List.range k).map fun a => X i a * Y j a).sum) cx)) m m' := by
  obtain ⟨r0, r1, er, cr⟩ := view2_ok r hr _ _ dr
  obtain ⟨x0, x1, ex, cx⟩ := view2_ok x hx _ _ dx
  obtain ⟨y0, y1, ey, cy⟩ := view2_ok y hy _ _ dy
  obtain ⟨m', k1, k2, k3⟩ := C134_AT (⟨r.off, n, l, r0, r1⟩ : RV2) ⟨x.off, n, k, x0, x1⟩ ⟨y.off, l, k, y0, y1⟩ rfl rfl rfl
    (by
      intro i hi j hj a ha b hb e
      rw [cr, cr] at e
      have := hd _ _ (dr ▸ inRange2.2 ⟨hi, hj⟩) (dr ▸ inRange2.2 ⟨ha, hb⟩) e
      simpa using this)
    (by
      intro i hi j hj a ha b hb e
      rw [cr, cx] at e
      exact hxa _ _ (dr ▸ inRange2.2 ⟨hi, hj⟩) (dx ▸ inRange2.2 ⟨ha, hb⟩) e)
    (by
      intro i hi j hj a ha b hb e
      rw [cr, cy] at e
      exact hya _ _ (dr ▸ inRange2.2 ⟨hi, hj⟩) (dy ▸ inRange2.2 ⟨ha, hb⟩) e) m R X Y
    (fun i hi j hj => by rw [cr]; exact hR i hi j hj) (fun i hi j hj => by rw [cx]; exact hX i hi j hj)
    (fun i hi j hj => by rw [cy]; exact hY i hi j hj)
  refine ⟨m', ?_, ?_, ?_⟩
  · unfold viewMprodAH
    rw [er, ex, ey, dr, dx, dy]
    simpa [Res.get] using k1
  · intro ix hix
    obtain ⟨i, j, rfl, hi, hj⟩ := inRange2_ex (dr ▸ hix)
    have := k2 i hi j hj
    rw [cr] at this
    rw [this]; rfl
  · intro c hc
    apply k3
    intro i hi j hj
    rw [cr]
    exact hc _ (dr ▸ inRange2.2 ⟨hi, hj⟩)

/-- A matrix operation in every cell. -/
theorem mat_cells (hr : r.Ok) (hx : x.Ok) (hy : y.Ok) (hB : CommonB [x.b, y.b] r.b) (hG : CommonG [x.g, y.g] r.g)
    (h0 : 0 < x.b ∧ 0 < y.b) (hd : r.v.Distinct) (hxa : r.v.Apart x.v) (hya : r.v.Apart y.v) (m : Buf α)
    (R X Y : Nat → List Nat → List Nat → α) (hR : r.Has m R) (hX : x.Has m X) (hY : y.Has m Y)
    (op : View → View → View → Buf α → Res (Buf α))
    (F : (List Nat → α) → (List Nat → α) → (List Nat → α) → List Nat → α)
    (hop : ∀ (u v w : View), u.WF → v.WF → w.WF → u.dims = r.c → v.dims = x.c → w.dims = y.c → u.Distinct → u.Apart v →
      u.Apart w → ∀ (m : Buf α) (U V W : List Nat → α), (∀ ix, InRange ix r.c → m (u.cell ix) = some (U ix)) →
      (∀ ix, InRange ix x.c → m (v.cell ix) = some (V ix)) → (∀ ix, InRange ix y.c → m (w.cell ix) = some (W ix)) →
      ∃ m', op u v w m = .ok m' ∧ Updated u (fun cx => some (F U V W cx)) m m') :
    ∃ m', forEach3 r x y (fun _ _ r x y m => op r x y m) m = .ok m' ∧
      r.Becomes m m' fun b gx cx => F (R b gx) (x.rep X b gx) (y.rep Y b gx) cx := by
  have fx : x.Fits r.b r.g := ⟨hB.2 _ (by simp), hG.2 _ (by simp)⟩
  have fy : y.Fits r.b r.g := ⟨hB.2 _ (by simp), hG.2 _ (by simp)⟩
  have hrb : 0 < r.b := by
    have := hB.1
    simp only [List.mem_cons, List.not_mem_nil, or_false] at this
    omega
  rw [forEach3_eq hr hx hy (B := r.b) (g := r.g)
    ⟨by simp, by simp only [List.mem_cons, List.not_mem_nil, or_false, forall_eq_or_imp, forall_eq]; exact ⟨Or.inl trivial, fx.1, fy.1⟩⟩
    ⟨hrb, h0⟩ ⟨by simp, by simp only [List.mem_cons, List.not_mem_nil, or_false, forall_eq_or_imp, forall_eq]; exact ⟨Or.inl trivial, fx.2⟩⟩ fy.2]
  apply cells_core hr hd m (fun b gx m => op (r.cellView b gx) (x.cellView b gx) (y.cellView b gx) m)
  intro b hb gx hg m1 h1 h2
  have hX1 := has_outside hx hxa hX h2
  have hY1 := has_outside hy hya hY h2
  exact hop _ _ _ (hr.cellView_wf b gx) (hx.cellView_wf b gx) (hy.cellView_wf b gx) rfl rfl rfl (hr.cellView_distinct hd hb hg)
    (cellView_apart hr hx hxa fx h0.1 rfl rfl hb hg) (cellView_apart hr hy hya fy h0.2 rfl rfl hb hg) m1 _ _ _
    (fun cx hcx => own_vals hr hR hb hg h1 cx hcx)
    (fun cx hcx => cell_vals hx fx h0.1 hX1 hb hg cx hcx)
    (fun cx hcx => cell_vals hy fy h0.2 hY1 hb hg cx hcx)

end

/-! ## C147 -/

/-- `R.add_prod(x,y)`: every element of `R` grows by the product of the elements of `x` and `y` at the same batch, grid point
and cell index, where a missing batch, grid or cell is repeated. -/
theorem C147_add_prod [Add α] [CommMagma α] (r x y : BG) (hr : r.Ok) (hx : x.Ok) (hy : y.Ok) (hB : CommonB [x.b, y.b] r.b)
    (hG : CommonG [x.g, y.g] r.g) (hC : CommonG [x.c, y.c] r.c) (hc0 : r.c ≠ []) (h0 : 0 < x.b ∧ 0 < y.b) (hd : r.v.Distinct)
    (hxa : r.v.Apart x.v) (hya : r.v.Apart y.v) (m : Buf α) (R X Y : Nat → List Nat → List Nat → α) (hR : r.Has m R)
    (hX : x.Has m X) (hY : y.Has m Y) :
    ∃ m', addProd r x y m = .ok m' ∧ r.Becomes m m' fun b gx cx => R b gx cx + x.rep X b gx cx * y.rep Y b gx cx :=
  addProd_ok hr hx hy hB hG hC hc0 h0 hd hxa hya m R X Y hR hX hY

/-- `x*y` for operands of which at least one has cells: a new tensor of the common batch, grid and cell shape with the products;
the rest of memory is unchanged. -/
theorem C147_mul [NonUnitalNonAssocCommSemiring α] (x y : BG) (hx : x.Ok) (hy : y.Ok) (B : Nat) (G C : List Nat)
    (hB : CommonB [x.b, y.b] B) (hG : CommonG [x.g, y.g] G) (hC : CommonG [x.c, y.c] C) (hC0 : C ≠ []) (h0 : 0 < x.b ∧ 0 < y.b)
    (q : Nat) (m : Buf α) (hxq : x.Clear q (asize (B :: G ++ C))) (hyq : y.Clear q (asize (B :: G ++ C)))
    (X Y : Nat → List Nat → List Nat → α) (hX : x.Has m X) (hY : y.Has m Y) :
    ∃ R m', mul x y q m = .ok (R, m') ∧ R.Ok ∧ R.b = B ∧ R.g = G ∧ R.c = C ∧
      R.Has m' (fun b gx cx => x.rep X b gx cx * y.rep Y b gx cx) ∧
      ∀ a, a < q ∨ q + asize (B :: G ++ C) ≤ a → m' a = m a := by
  obtain ⟨k0, k1, k2, k3⟩ := make_parts q B G C
  obtain ⟨m', g1, g2⟩ := addProd_ok k0 hx hy (by rw [k1]; exact hB) (by rw [k2]; exact hG) (by rw [k3]; exact hC) (by rw [k3]; exact hC0) h0 make_distinct (make_apart hxq)
    (make_apart hyq) (allocZero m q (asize (B :: G ++ C))) (fun _ _ _ => 0) X Y (make_zero m) (alloc_has hx hxq hX)
    (alloc_has hy hyq hY)
  refine ⟨make q B G C, m', ?_, k0, k1, k2, k3, ?_, alloc_frame g2⟩
  · rw [mul, hx.getb, Res.ok_bind, hy.getb, Res.ok_bind, ((C74_batch2 _ _).1 B).2 hB, Res.ok_bind, hx.gdims, Res.ok_bind, hy.gdims,
      Res.ok_bind, ((C74_grid2 _ _).1 G).2 hG, Res.ok_bind, hx.cdims, Res.ok_bind, hy.cdims, Res.ok_bind,
      ((C74_grid2 _ _).1 C).2 hC, Res.ok_bind]
    simp only [g1, Res.ok_bind]
  · intro b hb gx hg cx hc
    rw [g2.1 b hb gx hg cx hc]
    dsimp only
    rw [zero_add]

/-- Operands without common batch, grid or cell shape are refused. -/
theorem C147_refuses [NonUnitalNonAssocCommSemiring α] (x y : BG) (hx : x.Ok) (hy : y.Ok) (q : Nat) (m : Buf α)
    (h : (¬ ∃ B, CommonB [x.b, y.b] B) ∨ (¬ ∃ G, CommonG [x.g, y.g] G) ∨ ¬ ∃ C, CommonG [x.c, y.c] C) :
    mul x y q m = .throw := by
  rw [mul, hx.getb, Res.ok_bind, hy.getb, Res.ok_bind, hx.gdims, hy.gdims, hx.cdims, hy.cdims]
  by_cases h1 : ∃ B, CommonB [x.b, y.b] B
  · obtain ⟨B, hB⟩ := h1
    rw [((C74_batch2 _ _).1 B).2 hB, Res.ok_bind, Res.ok_bind, Res.ok_bind]
    by_cases h2 : ∃ G, CommonG [x.g, y.g] G
    · obtain ⟨G, hG⟩ := h2
      rw [((C74_grid2 _ _).1 G).2 hG, Res.ok_bind, Res.ok_bind, Res.ok_bind]
      rcases h with h | h | h
      · exact absurd ⟨B, hB⟩ h
      · exact absurd ⟨G, hG⟩ h
      · rw [(C74_grid2 _ _).2 h]; rfl
    · rw [(C74_grid2 _ _).2 h2]; rfl
  · rw [(C74_batch2 _ _).2 h1]; rfl

/-- Two batches of a vector (2,3) and (4,5), times one vector (10,100). -/
def exX : BG := make 0 2 [] [2]
def exY : BG := make 4 1 [] [2]
def exM : Buf Int := Buf.ofList [2, 3, 4, 5, 10, 100]

example : exX.Ok ∧ exY.Ok ∧ CommonB [exX.b, exY.b] 2 ∧ CommonG [exX.g, exY.g] [] ∧ CommonG [exX.c, exY.c] [2] := by decide
example : ((mul exX exY 6 exM).bind fun p => .ok (p.1, (List.range 4).map fun i => p.2 (6 + i))) =
    .ok (make 6 2 [] [2], [some 20, some 300, some 40, some 500]) := by decide

/-! ## C148 -/

/-- Full statement, which is false: the product of two tensors without cells is the product of their elements.  It is zero
everywhere. -/
theorem C148_scalars_fails [NonUnitalNonAssocCommSemiring α] (x y : BG) (hx : x.Ok) (hy : y.Ok) (hxc : x.c = []) (hyc : y.c = [])
    (B : Nat) (G : List Nat) (hB : CommonB [x.b, y.b] B) (hG : CommonG [x.g, y.g] G) (q : Nat) (m : Buf α) :
    ∃ R m', mul x y q m = .ok (R, m') ∧ R.b = B ∧ R.g = G ∧ R.c = [] ∧ R.Has m' fun _ _ _ => 0 := by
  obtain ⟨k0, k1, k2, k3⟩ := make_parts q B G []
  have hC : CommonG [x.c, y.c] [] := by rw [hxc, hyc]; exact ⟨by simp, by simp⟩
  refine ⟨make q B G [], allocZero m q (asize (B :: G ++ [])), ?_, k1, k2, k3, make_zero m⟩
  have h1 : x.hasCells = false := by rw [Bool.eq_false_iff]; intro h; exact hx.hasCells.1 h hxc
  have h2 : y.hasCells = false := by rw [Bool.eq_false_iff]; intro h; exact hy.hasCells.1 h hyc
  rw [mul, hx.getb, Res.ok_bind, hy.getb, Res.ok_bind, ((C74_batch2 _ _).1 B).2 hB, Res.ok_bind, hx.gdims, Res.ok_bind, hy.gdims,
    Res.ok_bind, ((C74_grid2 _ _).1 G).2 hG, Res.ok_bind, hx.cdims, Res.ok_bind, hy.cdims, Res.ok_bind,
    ((C74_grid2 _ _).1 []).2 hC, Res.ok_bind]
  have h3 : x.hasCells.toNat + y.hasCells.toNat + (make q B G []).hasCells.toNat < 2 := by
    rw [h1, h2]
    have := Bool.toNat_le (make q B G []).hasCells
    simp only [Bool.toNat_false]
    omega
  simp only [addProd, if_pos h3, Res.ok_bind]

example : ((mul (make 0 2 [] []) (make 2 1 [] []) 3 (Buf.ofList [(2 : Int), 3, 10])).bind fun p =>
    .ok ((List.range 2).map fun i => p.2 (3 + i))) = .ok [some 0, some 0] := by decide

/-! ## C149 -/

/-- `x/y`: a divisor without cells divides every element at its batch and grid point (`inv c` is `1/c`). -/
theorem C149_div [NonUnitalNonAssocCommSemiring α] (inv : α → α) (x y : BG) (hx : x.Ok) (hy : y.Ok) (hyc : y.c = []) (B : Nat)
    (G : List Nat) (hB : CommonB [x.b, y.b] B) (hG : CommonG [x.g, y.g] G) (h0 : 0 < x.b ∧ 0 < y.b) (q : Nat) (m : Buf α)
    (hxq : x.Clear q (asize (B :: G ++ x.c))) (hyq : y.Clear q (asize (B :: G ++ x.c))) (X Y : Nat → List Nat → List Nat → α)
    (hX : x.Has m X) (hY : y.Has m Y) :
    ∃ R m', div inv x y q m = .ok (R, m') ∧ R.Ok ∧ R.b = B ∧ R.g = G ∧ R.c = x.c ∧
      R.Has m' (fun b gx cx => x.rep X b gx cx * inv (y.rep Y b gx [])) ∧
      ∀ a, a < q ∨ q + asize (B :: G ++ x.c) ≤ a → m' a = m a := by
  obtain ⟨k0, k1, k2, k3⟩ := make_parts q B G x.c
  have hC : CommonG [x.c, y.c] x.c := by rw [hyc]; exact ⟨by simp, by simp⟩
  obtain ⟨m', g1, g2⟩ := scale_cells inv k0 hx hy hyc k3.symm (by rw [k1]; exact hB) (by rw [k2]; exact hG) h0 make_distinct (make_apart hxq)
    (make_apart hyq) (allocZero m q (asize (B :: G ++ x.c))) (fun _ _ _ => 0) X Y (make_zero m) (alloc_has hx hxq hX)
    (alloc_has hy hyq hY)
  refine ⟨make q B G x.c, m', ?_, k0, k1, k2, k3, ?_, alloc_frame g2⟩
  · rw [div, hx.getb, Res.ok_bind, hy.getb, Res.ok_bind, ((C74_batch2 _ _).1 B).2 hB, Res.ok_bind, hx.gdims, Res.ok_bind, hy.gdims,
      Res.ok_bind, ((C74_grid2 _ _).1 G).2 hG, Res.ok_bind, hx.cdims, Res.ok_bind, hy.cdims, Res.ok_bind,
      ((C74_grid2 _ _).1 x.c).2 hC, Res.ok_bind]
    have h2 : ¬ y.hasCells = true := fun h => hy.hasCells.1 h hyc
    simp only [addDiv, if_neg h2, g1, Res.ok_bind]
  · intro b hb gx hg cx hc
    rw [g2.1 b hb gx hg cx hc]
    dsimp only
    rw [zero_add, mul_comm]
    have : y.rep Y b gx cx = y.rep Y b gx [] := by simp [rep, hyc]
    rw [this]

/-- A divisor with cells is refused. -/
theorem C149_refuses [NonUnitalNonAssocCommSemiring α] (inv : α → α) (r x y : BG) (hy : y.Ok) (hyc : y.c ≠ []) (m : Buf α) :
    addDiv inv r x y m = .throw := by
  rw [addDiv, if_pos (hy.hasCells.2 hyc)]

example : ((div (fun c => 60 / c) exX (make 4 2 [] []) 6 exM).bind fun p => .ok ((List.range 4).map fun i => p.2 (6 + i))) =
    .ok [some 12, some 18, some 0, some 0] := by decide

/-! ## C150 -/

/-- `x.mprod(y)`: in every batch and grid point the matrix product of the cells. -/
theorem C150_mprod [NonUnitalNonAssocSemiring α] (x y : BG) (hx : x.Ok) (hy : y.Ok) (n k l : Nat) (hxc : x.c = [n, k])
    (hyc : y.c = [k, l]) (B : Nat) (G : List Nat) (hB : CommonB [x.b, y.b] B) (hG : CommonG [x.g, y.g] G) (h0 : 0 < x.b ∧ 0 < y.b)
    (q : Nat) (m : Buf α) (hxq : x.Clear q (asize (B :: G ++ [n, l]))) (hyq : y.Clear q (asize (B :: G ++ [n, l])))
    (X Y : Nat → List Nat → List Nat → α) (hX : x.Has m X) (hY : y.Has m Y) :
    ∃ R m', mprod x y q m = .ok (R, m') ∧ R.Ok ∧ R.b = B ∧ R.g = G ∧ R.c = [n, l] ∧
      (∀ b, b < B → ∀ gx, InRange gx G → ∀ i, i < n → ∀ j, j < l → m' (R.v.cell (b :: (gx ++ [i, j]))) =
        some (((List.range k).map fun a => x.rep X b gx [i, a] * y.rep Y b gx [a, j]).sum)) ∧
      ∀ a, a < q ∨ q + asize (B :: G ++ [n, l]) ≤ a → m' a = m a := by
  obtain ⟨k0, k1, k2, k3⟩ := make_parts q B G [n, l]
  obtain ⟨m', g1, g2⟩ := mat_cells k0 hx hy (by rw [k1]; exact hB) (by rw [k2]; exact hG) h0 make_distinct (make_apart hxq) (make_apart hyq)
    (allocZero m q (asize (B :: G ++ [n, l]))) (fun _ _ _ => 0) X Y (make_zero m) (alloc_has hx hxq hX) (alloc_has hy hyq hY)
    viewMprod (fun U V W => two fun i j => U [i, j] + ((List.range k).map fun a => V [i, a] * W [a, j]).sum)
    (fun u v w hu hv hw du dv dw hd hv' hw' m U V W hU hV hW =>
      viewMprod_ok u v w hu hv hw (du.trans k3) (dv.trans hxc) (dw.trans hyc) hd hv' hw' m (fun i j => U [i, j])
        (fun i j => V [i, j]) (fun i j => W [i, j])
        (fun i hi j hj => hU _ (by rw [k3]; exact inRange2.2 ⟨hi, hj⟩)) (fun i hi j hj => hV _ (hxc ▸ inRange2.2 ⟨hi, hj⟩))
        (fun i hi j hj => hW _ (hyc ▸ inRange2.2 ⟨hi, hj⟩)))
  obtain ⟨x1, -, x3, -⟩ := hx.split
  obtain ⟨y1, -, y3, -⟩ := hy.split
  have xd : ∀ i, x.cdim i = Res.get [n, k] i := by
    intro i
    rw [cdim, Res.get, Res.get, x1, hxc, ← x3]
    rw [show 1 + x.g.length + i = (x.g.length + i) + 1 by omega, List.getElem?_cons_succ, List.getElem?_append_right (by omega)]
    simp
  have yd : ∀ i, y.cdim i = Res.get [k, l] i := by
    intro i
    rw [cdim, Res.get, Res.get, y1, hyc, ← y3]
    rw [show 1 + y.g.length + i = (y.g.length + i) + 1 by omega, List.getElem?_cons_succ, List.getElem?_append_right (by omega)]
    simp
  refine ⟨make q B G [n, l], m', ?_, k0, k1, k2, k3, ?_, alloc_frame g2⟩
  · have e1 : x.v.dims.length = x.ng + 1 + 2 := by
      rw [x1, hxc]; simp only [List.length_cons, List.length_append, List.length_nil]; omega
    have e2 : y.v.dims.length = y.ng + 1 + 2 := by
      rw [y1, hyc]; simp only [List.length_cons, List.length_append, List.length_nil]; omega
    rw [mprod, e1, e2]
    simp only [decide_true, Bool.and_self, Res.assrt_true, Res.ok_bind, xd, yd, Res.get, List.getElem?_cons_succ,
      List.getElem?_cons_zero, hx.getb, hy.getb, ((C74_batch2 _ _).1 B).2 hB, hx.gdims, hy.gdims, ((C74_grid2 _ _).1 G).2 hG]
    have g1' : (make q B G [n, l]).addMprod x y (allocZero m q (asize (B :: G ++ [n, l]))) = .ok m' := g1
    simp only [g1', Res.ok_bind]
  · intro b hb gx hg i hi j hj
    rw [g2.1 b (by rw [k1]; exact hb) gx (by rw [k2]; exact hg) [i, j] (by rw [k3]; exact inRange2.2 ⟨hi, hj⟩)]
    simp [two]

/-- Operands whose cells are not matrices, or whose inner sizes differ, are refused. -/
theorem C150_refuses [NonUnitalNonAssocSemiring α] (x y : BG) (hx : x.Ok) (hy : y.Ok) (q : Nat) (m : Buf α)
    (h : x.c.length ≠ 2 ∨ y.c.length ≠ 2 ∨ ∃ n k k' l, x.c = [n, k] ∧ y.c = [k', l] ∧ k ≠ k') : mprod x y q m = .throw := by
  obtain ⟨x1, -, x3, -⟩ := hx.split
  obtain ⟨y1, -, y3, -⟩ := hy.split
  have hxl : x.v.dims.length = x.ng + 1 + x.c.length := by
    rw [x1]; simp only [List.length_cons, List.length_append]; omega
  have hyl : y.v.dims.length = y.ng + 1 + y.c.length := by
    rw [y1]; simp only [List.length_cons, List.length_append]; omega
  unfold mprod
  rcases h with h | h | ⟨n, k, k', l, hxc, hyc, hne⟩
  · have : ¬ x.v.dims.length = x.ng + 1 + 2 := by omega
    simp [Res.assrt, this]
  · have : ¬ y.v.dims.length = y.ng + 1 + 2 := by omega
    simp [Res.assrt, this]
  · have e1 : x.v.dims.length = x.ng + 1 + 2 := by rw [hxl, hxc]; rfl
    have e2 : y.v.dims.length = y.ng + 1 + 2 := by rw [hyl, hyc]; rfl
    have xd : x.cdim 1 = .ok k := by
      rw [cdim, Res.get, x1, hxc, ← x3, show 1 + x.g.length + 1 = (x.g.length + 1) + 1 by omega, List.getElem?_cons_succ,
        List.getElem?_append_right (by omega)]
      simp
    have yd : y.cdim 0 = .ok k' := by
      rw [cdim, Res.get, y1, hyc, ← y3, show 1 + y.g.length + 0 = y.g.length + 1 by omega, List.getElem?_cons_succ,
        List.getElem?_append_right (by omega)]
      simp
    simp [e1, e2, xd, yd, Res.assrt, hne]

/-- Two batches of a 1×2 matrix times one 2×1 matrix. -/
example : ((mprod (make 0 2 [] [1, 2]) (make 4 1 [] [2, 1]) 6 exM).bind fun p =>
    .ok (p.1, (List.range 2).map fun i => p.2 (6 + i))) = .ok (make 6 2 [] [1, 1], [some 320, some 540]) := by decide

/-! ## C151 -/

/-- `xg.add_mprod_back0(rg,y)`: the gradient of `⟨rg, x·y⟩` with respect to `x`, i.e. `xg += rg·yᵀ` in every cell. -/
theorem C151_back0 [NonUnitalNonAssocSemiring α] (xg rg y : BG) (hxg : xg.Ok) (hrg : rg.Ok) (hy : y.Ok) (n k l : Nat)
    (hxc : xg.c = [n, k]) (hrc : rg.c = [n, l]) (hyc : y.c = [k, l]) (hB : CommonB [rg.b, y.b] xg.b)
    (hG : CommonG [rg.g, y.g] xg.g) (h0 : 0 < rg.b ∧ 0 < y.b) (hd : xg.v.Distinct) (hra : xg.v.Apart rg.v) (hya : xg.v.Apart y.v)
    (m : Buf α) (XG RG Y : Nat → List Nat → List Nat → α) (hXG : xg.Has m XG) (hRG : rg.Has m RG) (hY : y.Has m Y) :
    ∃ m', addMprodBack0 xg rg y m = .ok m' ∧
      (∀ b, b < xg.b → ∀ gx, InRange gx xg.g → ∀ i, i < n → ∀ j, j < k → m' (xg.v.cell (b :: (gx ++ [i, j]))) =
        some (XG b gx [i, j] + ((List.range l).map fun a => rg.rep RG b gx [i, a] * y.rep Y b gx [j, a]).sum)) ∧
      ∀ c, (∀ ix, InRange ix xg.v.dims → c ≠ xg.v.cell ix) → m' c = m c := by
  obtain ⟨m', g1, g2⟩ := mat_cells hxg hrg hy hB hG h0 hd hra hya m XG RG Y hXG hRG hY
    viewMprodAH (fun U V W => two fun i j => U [i, j] + ((List.range l).map fun a => V [i, a] * W [j, a]).sum)
    (fun u v w hu hv hw du dv dw hd hv' hw' m U V W hU hV hW =>
      viewMprodAH_ok u v w hu hv hw (du.trans hxc) (dv.trans hrc) (dw.trans hyc) hd hv' hw' m (fun i j => U [i, j])
        (fun i j => V [i, j]) (fun i j => W [i, j])
        (fun i hi j hj => hU _ (hxc ▸ inRange2.2 ⟨hi, hj⟩)) (fun i hi j hj => hV _ (hrc ▸ inRange2.2 ⟨hi, hj⟩))
        (fun i hi j hj => hW _ (hyc ▸ inRange2.2 ⟨hi, hj⟩)))
  refine ⟨m', g1, ?_, g2.2⟩
  intro b hb gx hg i hi j hj
  rw [g2.1 b hb gx hg [i, j] (hxc ▸ inRange2.2 ⟨hi, hj⟩)]
  simp [two]

example : ((addMprodBack0 (make 0 1 [] [1, 2]) (make 2 1 [] [1, 1]) (make 4 1 [] [2, 1]) exM).bind fun p =>
    .ok ((List.range 2).map fun i => p i)) = .ok [some (2 + 4 * 10), some (3 + 4 * 100)] := by decide

/-! ## C152 -/

/-- Full statement, which is false: `yg.add_mprod_back1(rg,x)` adds `xᵀ·rg`.  It adds `rg·xᵀ` (where the shapes allow). -/
theorem C152_back1_partial [NonUnitalNonAssocSemiring α] (r x y : BG) (m : Buf α) :
    addMprodBack1 r x y m = addMprodBack0 r x y m := rfl

/-- Shapes of a legal product (1×2)·(2×1): the gradient of the second operand is refused. -/
theorem C152_back1_fails (m : Buf Int) :
    addMprodBack1 (make 0 1 [] [2, 1]) (make 2 1 [] [1, 1]) (make 3 1 [] [1, 2]) m = .throw := by
  rfl

/-- Square cells: with `x = [[1,2],[3,4]]` and `rg = [[1,0],[0,0]]` the gradient `xᵀ·rg` is `[[1,0],[2,0]]`, but `[[1,3],[0,0]]` is
added. -/
theorem C152_square_fails : ((addMprodBack1 (make 0 1 [] [2, 2]) (make 4 1 [] [2, 2]) (make 8 1 [] [2, 2])
    (Buf.ofList [(0 : Int), 0, 0, 0, 1, 0, 0, 0, 1, 2, 3, 4])).bind fun p => .ok ((List.range 4).map fun i => p i)) =
    .ok [some 1, some 3, some 0, some 0] := by decide

end BG
end Cnine
