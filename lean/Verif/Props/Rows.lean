import Verif.Model.Rows
import Verif.Props.RView3
import Mathlib.Data.List.Lex
import Mathlib.Data.Complex.Basic
import Mathlib.Tactic.Linarith

/-! # C73 unique sorted rows; C77, C143 the split complex reference -/

namespace Cnine

variable {α : Type _}

/-! ## C73 -/

/-- Row `i` of a matrix with `d` columns. -/
def rowOf (X : Nat → Nat → α) (d i : Nat) : List α := (List.range d).map (X i)

section Rows
variable [LinearOrder α]

theorem lessFrom_ok (m : Buf α) (u v : RV1) (U V : Nat → α) : ∀ l : List Nat,
    (∀ i ∈ l, m (u.cell i) = some (U i)) → (∀ i ∈ l, m (v.cell i) = some (V i)) →
    lessFrom m u v l = .ok (decide (l.map U < l.map V))
  | [], _, _ => by simp [lessFrom]
  | i :: l, hu, hv => by
    rw [lessFrom, RV1.cell_comm, RV1.cell_comm, read_ok (hu i (by simp)), Res.ok_bind, read_ok (hv i (by simp)), Res.ok_bind]
    simp only [List.map_cons, List.cons_lt_cons_iff]
    rcases lt_trichotomy (U i) (V i) with h | h | h
    · rw [if_pos h]; simp [h]
    · rw [if_neg (by rw [h]; exact lt_irrefl _), if_neg (by rw [h]; exact lt_irrefl _),
        lessFrom_ok m u v U V l (fun j hj => hu j (by simp [hj])) (fun j hj => hv j (by simp [hj]))]
      simp [h]
    · rw [if_neg (not_lt.2 h.le), if_pos h]
      simp [not_lt.2 h.le, h.ne']

theorem viewLess_ok (m : Buf α) (u v : RV1) (U V : Nat → α) (hn : u.n0 = v.n0) (hu : u.Has m U) (hv : v.Has m V) :
    viewLess m u v = .ok (decide ((List.range u.n0).map U < (List.range u.n0).map V)) := by
  simp only [viewLess, hn, decide_true, Res.assrt, if_true, Res.ok_bind]
  apply lessFrom_ok
  · intro i hi; exact hu i (hn ▸ List.mem_range.1 hi)
  · intro i hi; exact hv i (List.mem_range.1 hi)

/-- The view of row `i` that the constructor inserts. -/
def rowView (x : RV2) (i : Nat) : RV1 := ⟨x.arr + x.s0 * i, x.n1, x.s1⟩

theorem rowView_cell (x : RV2) (i j : Nat) : (rowView x i).cell j = x.cell i j := by
  simp only [rowView, RV1.cell, RV2.cell]; omega

theorem setInsert_ok (x : RV2) (m : Buf α) (X : Nat → Nat → α) (hX : x.Has m X) (i : Nat) (hi : i < x.n0) :
    ∀ is : List Nat, (∀ j ∈ is, j < x.n0) → is.Pairwise (fun a b => rowOf X x.n1 a < rowOf X x.n1 b) →
    ∃ js : List Nat, setInsert m (rowView x i) (is.map (rowView x)) = .ok (js.map (rowView x)) ∧
      (∀ j ∈ js, j = i ∨ j ∈ is) ∧ (∀ j ∈ is, j ∈ js) ∧
      js.Pairwise (fun a b => rowOf X x.n1 a < rowOf X x.n1 b) ∧ ∃ j ∈ js, rowOf X x.n1 j = rowOf X x.n1 i := by
  have less : ∀ a b, a < x.n0 → b < x.n0 →
      viewLess m (rowView x a) (rowView x b) = .ok (decide (rowOf X x.n1 a < rowOf X x.n1 b)) := by
    intro a b ha hb
    exact viewLess_ok m _ _ (X a) (X b) rfl (fun j hj => by rw [rowView_cell]; exact hX a ha j hj)
      (fun j hj => by rw [rowView_cell]; exact hX b hb j hj)
  intro is
  induction is with
  | nil => intro _ _; exact ⟨[i], rfl, by simp, by simp, by simp, i, by simp, rfl⟩
  | cons w is ih =>
    intro hlt hp
    have hw := hlt w (by simp)
    rw [List.pairwise_cons] at hp
    rw [List.map_cons, setInsert, less i w hi hw, Res.ok_bind, less w i hw hi]
    rcases lt_trichotomy (rowOf X x.n1 i) (rowOf X x.n1 w) with h | h | h
    · refine ⟨i :: w :: is, by simp [h], by simp, by simp +contextual, ?_, i, by simp, rfl⟩
      refine List.pairwise_cons.2 ⟨?_, List.pairwise_cons.2 hp⟩
      intro j hj
      rcases List.mem_cons.1 hj with rfl | hj
      · exact h
      · exact h.trans (hp.1 j hj)
    · refine ⟨w :: is, by simp [h], by simp +contextual, by simp, List.pairwise_cons.2 hp, w, by simp, h.symm⟩
    · obtain ⟨js, h1, h2, h3, h4, j, h5, h6⟩ := ih (fun j hj => hlt j (by simp [hj])) hp.2
      refine ⟨w :: js, by simp [not_lt.2 h.le, h, h1], ?_, ?_, ?_, j, by simp [h5], h6⟩
      · intro k hk
        rcases List.mem_cons.1 hk with rfl | hk
        · simp
        · rcases h2 k hk with e | e
          · exact Or.inl e
          · exact Or.inr (by simp [e])
      · intro k hk
        rcases List.mem_cons.1 hk with rfl | hk
        · simp
        · simp [h3 k hk]
      · refine List.pairwise_cons.2 ⟨fun k hk => ?_, h4⟩
        rcases h2 k hk with rfl | e
        · exact h
        · exact hp.1 k e

theorem insertAll_ok (x : RV2) (m : Buf α) (X : Nat → Nat → α) (hX : x.Has m X) : ∀ (l is : List Nat),
    (∀ j ∈ l, j < x.n0) → (∀ j ∈ is, j < x.n0) → is.Pairwise (fun a b => rowOf X x.n1 a < rowOf X x.n1 b) →
    ∃ js : List Nat, Res.forM l (is.map (rowView x)) (fun s i => setInsert m (rowView x i) s) = .ok (js.map (rowView x)) ∧
      (∀ j ∈ js, j < x.n0) ∧ js.Pairwise (fun a b => rowOf X x.n1 a < rowOf X x.n1 b) ∧ (∀ j ∈ is, j ∈ js) ∧
      ∀ i ∈ l, ∃ j ∈ js, rowOf X x.n1 j = rowOf X x.n1 i
  | [], is, _, h2, h3 => ⟨is, rfl, h2, h3, fun _ h => h, by simp⟩
  | i :: l, is, h1, h2, h3 => by
    obtain ⟨js, g1, g2, g3, g4, j, g5, g6⟩ := setInsert_ok x m X hX i (h1 i (by simp)) is h2 h3
    obtain ⟨ks, k1, k2, k3, k4, k5⟩ := insertAll_ok x m X hX l js (fun j hj => h1 j (by simp [hj]))
      (fun j hj => by rcases g2 j hj with rfl | h
                      · exact h1 _ (by simp)
                      · exact h2 j h) g4
    refine ⟨ks, ?_, k2, k3, fun j hj => k4 j (g3 j hj), ?_⟩
    · rw [Res.forM_cons, g1, Res.ok_bind]; exact k1
    · intro a ha
      rcases List.mem_cons.1 ha with rfl | ha
      · exact ⟨j, k4 j g5, g6⟩
      · exact k5 a ha

end Rows

/-- The rows of the result are strictly increasing in lexicographic order and are exactly the rows of
the argument; nothing outside the new block changes. -/
theorem C73_rows [LinearOrder α] [Zero α] (x : RV2) (q : Nat) (m : Buf α) (X : Nat → Nat → α) (hX : x.Has m X)
    (hq : ∀ c, q ≤ c → ∀ i, i < x.n0 → ∀ j, j < x.n1 → c ≠ x.cell i j) :
    ∃ R m' Y, sortRowsUnique x q m = .ok (R, m') ∧ R.arr = q ∧ R.n1 = x.n1 ∧ R.isRegular = true ∧ R.Has m' Y ∧
      ((List.range R.n0).map (rowOf Y x.n1)).Pairwise (· < ·) ∧
      (∀ row, row ∈ (List.range R.n0).map (rowOf Y x.n1) ↔ row ∈ (List.range x.n0).map (rowOf X x.n1)) ∧
      ∀ c, c < q ∨ q + R.n0 * R.n1 ≤ c → m' c = m c := by
  obtain ⟨js, h1, h2, h3, _, h5⟩ := insertAll_ok x m X hX (List.range x.n0) [] (by simp) (by simp) (by simp)
  let R := freshRows q js.length x.n1
  have hreg : R.isRegular = true := by simp [R, freshRows, RV2.isRegular]
  let m1 := allocZero m q (js.length * x.n1)
  have hm1 : ∀ c, c < q ∨ q + js.length * x.n1 ≤ c → m1 c = m c := by
    intro c hc; simp only [m1, allocZero]; rw [if_neg (by omega)]
  have hx1 : x.Has m1 X := by
    intro i hi j hj
    rw [hm1 _ (by
      rcases Nat.lt_or_ge (x.cell i j) q with h | h
      · exact Or.inl h
      · exact absurd rfl (hq _ h i hi j hj))]
    exact hX i hi j hj
  have hal : ∀ t, t < js.length → ∀ j, j < x.n1 → m1 (R.cell t j) = some 0 := by
    intro t ht j hj
    rw [RV2.reg_cell hreg]
    simp only [m1, allocZero, R, freshRows]
    rw [if_pos]
    have := RV2.flat_lt ht hj
    omega
  let Y : Nat → Nat → α := fun t => X (js.getD t 0)
  obtain ⟨m', g1, g2, g3⟩ := forM_regions (js.zipIdx) (fun m p => RV1.assign (rowView R p.2) (rowView x p.1) m)
    (fun p c => ∃ j, j < x.n1 ∧ c = R.cell p.2 j)
    (fun p c => some (X p.1 (c - R.cell p.2 0))) m1
    (by
      have : (js.zipIdx.map Prod.snd).Nodup := by rw [List.zipIdx_map_snd]; exact List.nodup_range'
      exact List.Nodup.of_map _ this)
    (by
      rintro ⟨a, s⟩ hp ⟨b, t⟩ hq' hne c ⟨j, hj, rfl⟩ ⟨l, hl, e⟩
      obtain ⟨_, hs', ha⟩ := List.mem_zipIdx hp
      obtain ⟨_, ht', hb⟩ := List.mem_zipIdx hq'
      have := (RV2.reg_inj hreg s (by simpa [R, freshRows] using hs') j hj t (by simpa [R, freshRows] using ht') l hl e).1
      subst this
      apply hne
      rw [ha, hb])
    (by
      rintro ⟨a, t⟩ hp mm hmm
      obtain ⟨_, ht, ha⟩ := List.mem_zipIdx hp
      simp only [Nat.zero_add, Nat.sub_zero] at ht ha
      have hain : a ∈ js := by rw [ha]; exact List.getElem_mem _
      have han := h2 a hain
      have hap : (rowView R t).Compat (rowView x a) := by
        intro i hi j hj e
        rw [rowView_cell, rowView_cell] at e
        exact absurd e (hq _ (by rw [RV2.reg_cell hreg]; simp only [R, freshRows]; omega) a han j hj)
      obtain ⟨mm', k1, k2, k3⟩ := C130_assign (rowView R t) (rowView x a) rfl
        (RV1.inj_of_stride (by simp [rowView, R, freshRows])) hap mm (fun _ => 0) (X a)
        (by
          intro j hj
          rw [rowView_cell, hmm, hal t ht j hj]
          rintro ⟨b, s⟩ hs hne ⟨l, hl, e⟩
          obtain ⟨_, hs', hb⟩ := List.mem_zipIdx hs
          have := (RV2.reg_inj hreg t ht j hj s (by simpa [R, freshRows] using hs') l hl e).1
          subst this
          apply hne
          simp only [Nat.sub_zero] at hb
          rw [ha, hb])
        (by
          intro j hj
          rw [rowView_cell, hmm, hx1 a han j hj]
          rintro ⟨b, s⟩ hs hne ⟨l, hl, e⟩
          exact hq _ (by rw [RV2.reg_cell hreg]; simp only [R, freshRows]; omega) a han j hj e.symm)
      refine ⟨mm', k1, ?_, ?_⟩
      · rintro c ⟨j, hj, rfl⟩
        have := k2 j hj
        rw [rowView_cell] at this
        rw [this, RV2.reg_cell hreg, RV2.reg_cell hreg]
        congr 2
        omega
      · intro c hc
        exact k3 c fun j hj e => hc ⟨j, hj, by rw [e, rowView_cell]⟩)
  refine ⟨R, m', Y, ?_, rfl, rfl, hreg, ?_, ?_, ?_, ?_⟩
  · have e1 : Res.forM (List.range x.n0) [] (fun s i => setInsert m ⟨x.arr + x.s0 * i, x.n1, x.s1⟩ s) =
        .ok (js.map (rowView x)) := h1
    unfold sortRowsUnique
    rw [e1]
    simp only [Res.ok_bind, List.length_map]
    have e2 : Res.forM (js.map (rowView x)).zipIdx m1 (fun m p => RV1.assign (rowView R p.2) p.1 m) = .ok m' := by
      rw [List.zipIdx_map, forM_map]
      exact g1
    exact (congrArg (fun r => r >>= fun m => Res.ok (R, m)) e2).trans rfl
  · intro t ht j hj
    have ht : t < js.length := ht
    have hj : j < x.n1 := hj
    rw [g2 (js[t], t) (List.mem_zipIdx_iff_getElem?.2 (by simp [ht])) _ ⟨j, hj, rfl⟩]
    rw [RV2.reg_cell hreg, RV2.reg_cell hreg]
    have e3 : R.arr + (R.n1 * t + j) - (R.arr + (R.n1 * t + 0)) = j := by omega
    simp only [Y, e3, List.getD_eq_getElem?_getD, List.getElem?_eq_getElem ht, Option.getD_some]
  · have : (List.range R.n0).map (rowOf Y x.n1) = js.map (rowOf X x.n1) := by
      apply List.ext_getElem
      · simp [R, freshRows]
      · intro t h1 h2
        have h2' : t < js.length := by simpa using h2
        simp [rowOf, Y, h2']
    rw [this]
    exact List.pairwise_map.2 h3
  · have : (List.range R.n0).map (rowOf Y x.n1) = js.map (rowOf X x.n1) := by
      apply List.ext_getElem
      · simp [R, freshRows]
      · intro t h1 h2
        have h2' : t < js.length := by simpa using h2
        simp [rowOf, Y, h2']
    rw [this]
    intro row
    simp only [List.mem_map, List.mem_range]
    constructor
    · rintro ⟨j, hj, rfl⟩; exact ⟨j, h2 j hj, rfl⟩
    · rintro ⟨i, hi, rfl⟩
      obtain ⟨j, hj, e⟩ := h5 i (List.mem_range.2 hi)
      exact ⟨j, hj, e⟩
  · intro c hc
    rw [g3 c, hm1 c hc]
    rintro ⟨a, t⟩ hp ⟨j, hj, rfl⟩
    obtain ⟨_, ht, -⟩ := List.mem_zipIdx hp
    have := RV2.flat_lt (show t < js.length by omega) hj
    rw [RV2.reg_cell hreg] at hc
    simp only [R, freshRows] at hc
    omega

/-- A strictly increasing sequence of rows has no repetition, so a matrix has one such arrangement. -/
theorem C73_unique [LinearOrder α] (l l' : List (List α)) (h : l.Pairwise (· < ·)) (h' : l'.Pairwise (· < ·))
    (he : ∀ r, r ∈ l ↔ r ∈ l') : l = l' := by
  have p : l.Perm l' := (List.perm_ext_iff_of_nodup (h.imp fun h => ne_of_lt h) (h'.imp fun h => ne_of_lt h)).2 he
  exact p.eq_of_pairwise (fun a b _ _ h1 h2 => absurd h1 (lt_asymm h2)) h h'

/-- Four rows, two of them equal, in a column-major matrix. -/
example : ∃ m', sortRowsUnique ⟨0, 4, 2, 1, 4⟩ 8 (Buf.ofList [3, 1, 3, 1, (0 : Int), 5, 0, 2]) = .ok (⟨8, 3, 2, 2, 1⟩, m') ∧
    (List.range 6).map (fun i => m' (8 + i)) = [1, 2, 1, 5, 3, 0].map some := ⟨_, rfl, rfl⟩

/-! ## C77, C143 -/

namespace PCx

/-- The two cells hold the number `w`. -/
def Is (z : PCx) (m : Buf ℝ) (w : ℂ) : Prop := m z.realp = some w.re ∧ m z.imagp = some w.im

/-- A complex number as the pair of its parts. -/
def pr (w : ℂ) : ℝ × ℝ := (w.re, w.im)

/-- Afterwards the cells hold `w` and all others are as before. -/
def Becomes (z : PCx) (m m' : Buf ℝ) (w : ℂ) : Prop :=
  z.Is m' w ∧ ∀ c, c ≠ z.realp → c ≠ z.imagp → m' c = m c

theorem set_ok (z : PCx) (hz : z.realp ≠ z.imagp) (m : Buf ℝ) (w : ℂ) (h : z.Is m w) (a : ℝ × ℝ) :
    ∃ m', z.set a m = .ok m' ∧ z.Becomes m m' ⟨a.1, a.2⟩ := by
  obtain ⟨h1, h2⟩ := h
  refine ⟨_, by rw [set, write_ok h1, Res.ok_bind, write_ok (by simp only [hz.symm, if_false]; exact h2)], ⟨?_, ?_⟩, ?_⟩
  · simp [hz]
  · simp
  · intro c hc1 hc2; simp [hc1, hc2]

end PCx

open PCx in
/-- Reading, conjugating, assigning, adding, subtracting and dividing through the split reference act as
on complex numbers, and so does the binary product. -/
theorem C143_ops (z : PCx) (hz : z.realp ≠ z.imagp) (m : Buf ℝ) (w x : ℂ) (h : z.Is m w) :
    z.get m = .ok (pr w) ∧ z.conj m = .ok (pr (starRingEnd ℂ w)) ∧
    (∃ m', z.set (pr x) m = .ok m' ∧ z.Becomes m m' x) ∧
    (∃ m', z.addEq (pr x) m = .ok m' ∧ z.Becomes m m' (w + x)) ∧
    (∃ m', z.subEq (pr x) m = .ok m' ∧ z.Becomes m m' (w - x)) ∧
    (∃ m', z.divEq (fun a b => pr ((⟨a.1, a.2⟩ : ℂ) / ⟨b.1, b.2⟩)) (pr x) m = .ok m' ∧ z.Becomes m m' (w / x)) := by
  have h0 := h
  obtain ⟨h1, h2⟩ := h
  refine ⟨?_, ?_, set_ok z hz m w h0 (pr x), ?_, ?_, ?_⟩
  · simp [PCx.get, read_ok h1, read_ok h2, pr]
  · simp [PCx.conj, read_ok h1, read_ok h2, pr]
  · have : z.addEq (pr x) m = z.set (pr (w + x)) m := by
      rw [addEq, PCx.set, read_ok h1, Res.ok_bind]
      simp only [pr, Complex.add_re, Complex.add_im]
      rw [write_ok h1, Res.ok_bind, Res.ok_bind, read_ok (a := w.im) (by simp only [hz.symm, if_false]; exact h2), Res.ok_bind]
    rw [this]; exact set_ok z hz m w h0 _
  · have : z.subEq (pr x) m = z.set (pr (w - x)) m := by
      rw [subEq, PCx.set, read_ok h1, Res.ok_bind]
      simp only [pr, Complex.sub_re, Complex.sub_im]
      rw [write_ok h1, Res.ok_bind, Res.ok_bind, read_ok (a := w.im) (by simp only [hz.symm, if_false]; exact h2), Res.ok_bind]
    rw [this]; exact set_ok z hz m w h0 _
  · have : z.divEq (fun a b => pr ((⟨a.1, a.2⟩ : ℂ) / ⟨b.1, b.2⟩)) (pr x) m = z.set (pr (w / x)) m := by
      rw [divEq, PCx.set, read_ok h1, Res.ok_bind, read_ok h2, Res.ok_bind]; rfl
    rw [this]; exact set_ok z hz m w h0 _

open PCx in
/-- The binary product is the complex product. -/
theorem C143_mul (z y : PCx) (m : Buf ℝ) (w x : ℂ) (h : z.Is m w) (h' : y.Is m x) :
    z.mul y m = .ok (pr (w * x)) := by
  simp [PCx.mul, PCx.get, read_ok h.1, read_ok h.2, read_ok h'.1, read_ok h'.2, pr, Complex.mul_re, Complex.mul_im]

open PCx in
/-- What `operator*=` leaves: the imaginary part is computed with the new real part. -/
theorem C77_result (z : PCx) (hz : z.realp ≠ z.imagp) (m : Buf ℝ) (w x : ℂ) (h : z.Is m w) :
    ∃ m', z.mulEq (pr x) m = .ok m' ∧ z.Becomes m m' ⟨(w * x).re, x.re * w.im + x.im * (w * x).re⟩ := by
  obtain ⟨h1, h2⟩ := h
  have : z.mulEq (pr x) m = z.set ((w * x).re, x.re * w.im + x.im * (w * x).re) m := by
    rw [mulEq, PCx.set, read_ok h1, Res.ok_bind, read_ok h2, Res.ok_bind]
    simp only [pr]
    have e : x.re * w.re - x.im * w.im = (w * x).re := by rw [Complex.mul_re]; ring
    rw [e, write_ok h1, Res.ok_bind, Res.ok_bind, read_ok (a := w.im) (by simp only [hz.symm, if_false]; exact h2), Res.ok_bind,
      read_ok (a := (w * x).re) (by simp), Res.ok_bind]
  rw [this]; exact set_ok z hz m w ⟨h1, h2⟩ _

open PCx in
/-- `operator*=` multiplies exactly when the multiplier is real or the real part does not change. -/
theorem C77_mulEq_partial (z : PCx) (hz : z.realp ≠ z.imagp) (m : Buf ℝ) (w x : ℂ) (h : z.Is m w) :
    (∃ m', z.mulEq (pr x) m = .ok m' ∧ z.Becomes m m' (w * x)) ↔ x.im = 0 ∨ (w * x).re = w.re := by
  obtain ⟨m', h1, h2, h3⟩ := C77_result z hz m w x h
  have him := h2.2
  simp only at him
  constructor
  · rintro ⟨m2, g1, g2, -⟩
    have : m' = m2 := by simpa [h1] using g1
    subst this
    have e := g2.2
    rw [him, Complex.mul_im] at e
    have e' := Option.some.inj e
    have : x.im * ((w * x).re - w.re) = 0 := by linarith
    rcases mul_eq_zero.1 this with h | h
    · exact Or.inl h
    · exact Or.inr (by linarith)
  · intro hor
    refine ⟨m', h1, ⟨h2.1, ?_⟩, h3⟩
    rw [him, Complex.mul_im]
    congr 1
    rcases hor with h | h
    · rw [h]; ring
    · rw [h]; ring

open PCx in
/-- Multiplying `i` by `i` gives `-1 - i`. -/
theorem C77_mulEq_fails : ∃ (z : PCx) (m : Buf ℝ) (w x : ℂ), z.realp ≠ z.imagp ∧ z.Is m w ∧
    ¬ ∃ m', z.mulEq (pr x) m = .ok m' ∧ z.Becomes m m' (w * x) := by
  refine ⟨⟨0, 1⟩, Buf.ofList [0, 1], Complex.I, Complex.I, by decide, ⟨by simp [Buf.ofList], by simp [Buf.ofList]⟩, ?_⟩
  rw [C77_mulEq_partial _ (by decide) _ _ _ ⟨by simp [Buf.ofList], by simp [Buf.ofList]⟩]
  simp

/-- The same on integers: `i` times `i`. -/
example : ∃ m', PCx.mulEq ⟨0, 1⟩ (0, (1 : Int)) (Buf.ofList [0, 1]) = .ok m' ∧ m' 0 = some (-1) ∧ m' 1 = some (-1) :=
  ⟨_, rfl, rfl, rfl⟩

/-- `1 + 2i` plus `3 - i` stored imaginary part first. -/
example : ∃ m', PCx.addEq ⟨1, 0⟩ (3, (-1 : Int)) (Buf.ofList [2, 1]) = .ok m' ∧ m' 1 = some 4 ∧ m' 0 = some 1 :=
  ⟨_, rfl, rfl, rfl⟩

/-- The hypotheses of the theorems above are met. -/
example : (PCx.mk 1 0).realp ≠ (PCx.mk 1 0).imagp ∧ (PCx.mk 1 0).Is (Buf.ofList [2, 1]) ⟨1, 2⟩ :=
  ⟨by decide, by simp [Buf.ofList], by simp [Buf.ofList]⟩

end Cnine
