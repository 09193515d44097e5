import Verif.Model.BlockSparse
import Verif.Spec.BlockSparse
import Verif.Lemmas.OMap
import Verif.Props.RView2
import Mathlib.Algebra.BigOperators.Ring.Finset
import Mathlib.Algebra.BigOperators.Intervals

/-! # Lemmas on the block sparse matrices -/

namespace Cnine

open BlockSpec

variable {α υ : Type _}

namespace DIMap

/-- The value at (a,b) of a map of maps. -/
def find2 (mm : OMap Int (OMap Int υ)) (a b : Int) : Option υ := (OMap.find? a mm).bind (OMap.find? b)

/-- Sorted, with sorted rows. -/
structure WF2 (mm : OMap Int (OMap Int υ)) : Prop where
  rows : OMap.Sorted mm
  cols : ∀ p ∈ mm, OMap.Sorted p.2

theorem wf2_nil : WF2 ([] : OMap Int (OMap Int υ)) := ⟨OMap.sorted_nil, by simp⟩

theorem WF2.setIn {mm : OMap Int (OMap Int υ)} (h : WF2 mm) (a b : Int) (v : υ) : WF2 (setIn a b v mm) := by
  refine ⟨h.rows.set _ _, ?_⟩
  intro p hp
  rcases OMap.mem_set_key hp with e | e
  · subst e
    refine OMap.Sorted.set ?_ _ _
    cases hf : OMap.find? a mm with
    | none => exact OMap.sorted_nil
    | some r => exact h.cols _ (OMap.mem_of_find? hf)
  · exact h.cols p e

theorem find2_setIn (mm : OMap Int (OMap Int υ)) (a b : Int) (v : υ) (i j : Int) :
    find2 (setIn a b v mm) i j = if i = a ∧ j = b then some v else find2 mm i j := by
  unfold find2 setIn
  rw [OMap.find?_set]
  by_cases c : i = a
  · subst c
    rw [if_pos rfl, Option.bind_some, OMap.find?_set]
    by_cases d : j = b
    · rw [if_pos d, if_pos ⟨rfl, d⟩]
    · rw [if_neg d, if_neg (fun h => d h.2)]
      cases OMap.find? i mm <;> rfl
  · rw [if_neg c, if_neg (fun h => c h.1)]

/-- No row is empty. -/
def Full (mm : OMap Int (OMap Int υ)) : Prop := ∀ p ∈ mm, p.2 ≠ []

theorem Full.setIn {mm : OMap Int (OMap Int υ)} (h : Full mm) (a b : Int) (v : υ) : Full (setIn a b v mm) := by
  intro p hp
  rcases OMap.mem_set_key hp with e | e
  · subst e
    intro c
    have : OMap.find? b (OMap.set b v ((OMap.find? a mm).getD [])) = none := by dsimp only at c; rw [c]; rfl
    rw [OMap.find?_set_self] at this
    cases this
  · exact h p e

theorem mem_forEach {d : DIMap υ} (h : WF2 d.rmap) {i j : Int} {v : υ} :
    (i, j, v) ∈ d.forEach ↔ find2 d.rmap i j = some v := by
  unfold forEach find2
  rw [List.mem_flatMap]
  constructor
  · rintro ⟨p, hp, hq⟩
    obtain ⟨q, hq', e⟩ := List.mem_map.mp hq
    cases e
    rw [OMap.find?_of_mem h.rows hp]
    exact OMap.find?_of_mem (h.cols p hp) hq'
  · intro e
    obtain ⟨r, h1, h2⟩ := Option.bind_eq_some_iff.mp e
    exact ⟨(i, r), OMap.mem_of_find? h1, List.mem_map.mpr ⟨(j, v), OMap.mem_of_find? h2, rfl⟩⟩

theorem forEach_before {d : DIMap υ} (h : WF2 d.rmap) : d.forEach.Pairwise Before := by
  unfold forEach
  rw [List.pairwise_flatMap]
  constructor
  · intro p hp
    rw [List.pairwise_map]
    have := h.cols p hp
    unfold OMap.Sorted at this
    rw [List.pairwise_map] at this
    exact this.imp fun hab => Or.inr ⟨rfl, hab⟩
  · have := h.rows
    unfold OMap.Sorted at this
    rw [List.pairwise_map] at this
    refine this.imp ?_
    intro p q hpq a ha b hb
    obtain ⟨a', _, rfl⟩ := List.mem_map.mp ha
    obtain ⟨b', _, rfl⟩ := List.mem_map.mp hb
    exact Or.inl hpq

theorem size_eq (d : DIMap υ) : d.size = d.forEach.length := by
  unfold size forEach
  rw [List.length_flatMap]
  congr 1
  apply List.map_congr_left
  intro p _
  rw [List.length_map]

theorem isFilled_eq (d : DIMap υ) (i j : Int) : d.isFilled i j = (find2 d.rmap i j).isSome := by
  unfold isFilled find2
  cases OMap.find? i d.rmap <;> rfl

theorem get_eq [Zero υ] (d : DIMap υ) (i j : Int) : d.get i j = (find2 d.rmap i j).getD 0 := by
  unfold get find2
  cases OMap.find? i d.rmap <;> rfl

/-- Both maps are well formed and transposes of each other. -/
structure Good (d : DIMap υ) : Prop where
  r : WF2 d.rmap
  c : WF2 d.cmap
  rf : Full d.rmap
  cf : Full d.cmap
  eq : ∀ i j, find2 d.cmap j i = find2 d.rmap i j

theorem good_empty : (empty : DIMap υ).Good :=
  ⟨wf2_nil, wf2_nil, fun p hp => absurd hp (by simp [empty]), fun p hp => absurd hp (by simp [empty]), fun _ _ => rfl⟩

theorem Good.set {d : DIMap υ} (h : d.Good) (i j : Int) (v : υ) : (d.set i j v).Good := by
  refine ⟨h.r.setIn _ _ _, h.c.setIn _ _ _, h.rf.setIn _ _ _, h.cf.setIn _ _ _, ?_⟩
  intro a b
  unfold DIMap.set
  dsimp only
  rw [find2_setIn, find2_setIn, h.eq]
  by_cases c : a = i ∧ b = j
  · rw [if_pos c, if_pos ⟨c.2, c.1⟩]
  · rw [if_neg c, if_neg (fun e => c ⟨e.2, e.1⟩)]

theorem find2_set (d : DIMap υ) (i j : Int) (v : υ) (a b : Int) :
    find2 (d.set i j v).rmap a b = if a = i ∧ b = j then some v else find2 d.rmap a b := find2_setIn _ _ _ _ _ _

/-- The map after the settings `l`. -/
def run (l : List (Int × Int × υ)) : DIMap υ := l.foldl (fun d e => d.set e.1 e.2.1 e.2.2) empty

theorem run_snoc (l : List (Int × Int × υ)) (e : Int × Int × υ) : run (l ++ [e]) = (run l).set e.1 e.2.1 e.2.2 := by
  simp [run, List.foldl_append]

theorem run_spec (l : List (Int × Int × υ)) : (run l).Good ∧ ∀ i j, find2 (run l).rmap i j = lastSet l i j := by
  induction l using List.reverseRecOn with
  | nil => exact ⟨good_empty, fun _ _ => rfl⟩
  | append_singleton l e ih =>
    rw [run_snoc]
    refine ⟨ih.1.set _ _ _, ?_⟩
    intro i j
    rw [find2_set, ih.2]
    unfold lastSet
    rw [List.reverse_append, List.reverse_singleton, List.singleton_append, List.find?_cons]
    by_cases c : e.1 = i ∧ e.2.1 = j
    · rw [if_pos ⟨c.1.symm, c.2.symm⟩]; simp [c]
    · rw [if_neg (fun h => c ⟨h.1.symm, h.2.symm⟩)]
      have : decide (e.1 = i ∧ e.2.1 = j) = false := by simpa using c
      rw [this]

end DIMap

namespace BSM

open DIMap

theorem offsetsOf_snoc (mask : List (Int × Int)) (p : Int × Int) : offsetsOf (mask ++ [p]) =
    ((offsetsOf mask).1.set p.1 p.2 (offsetsOf mask).2, (offsetsOf mask).2 + 1) := by
  simp [offsetsOf, List.foldl_append]

theorem offsetsOf_spec (mask : List (Int × Int)) : (offsetsOf mask).1.Good ∧ (offsetsOf mask).2 = mask.length ∧
    ∀ i j t, find2 (offsetsOf mask).1.rmap i j = some t ↔ LastPlace mask i j t := by
  induction mask using List.reverseRecOn with
  | nil =>
    refine ⟨good_empty, rfl, ?_⟩
    intro i j t
    simp [offsetsOf, empty, find2, OMap.find?, LastPlace]
  | append_singleton l p ih =>
    rw [offsetsOf_snoc]
    refine ⟨ih.1.set _ _ _, by simp [ih.2.1], ?_⟩
    intro i j t
    rw [find2_set, ih.2.1]
    unfold LastPlace
    by_cases c : i = p.1 ∧ j = p.2
    · rw [if_pos c]
      have hp : p = (i, j) := by rw [c.1, c.2]
      constructor
      · intro e
        cases e
        refine ⟨by simp [hp], ?_⟩
        intro s hs
        rw [List.getElem?_eq_none (by simp; omega)]
        simp
      · rintro ⟨h1, h2⟩
        have h3 : t < (l ++ [p]).length := by
          by_contra hc
          rw [List.getElem?_eq_none (by omega)] at h1
          cases h1
        rw [List.length_append, List.length_singleton] at h3
        by_cases d : t < l.length
        · exact absurd (by simp [hp]) (h2 l.length d)
        · rw [show t = l.length by omega]
    · rw [if_neg c, ih.2.2]
      have hp : p ≠ (i, j) := fun e => c (by rw [e]; exact ⟨rfl, rfl⟩)
      unfold LastPlace
      have key : ∀ s : Nat, (l ++ [p])[s]? = some (i, j) ↔ l[s]? = some (i, j) := by
        intro s
        rcases Nat.lt_trichotomy s l.length with h | h | h
        · rw [List.getElem?_append_left h]
        · subst h; simp [hp]
        · rw [List.getElem?_eq_none (by simp; omega), List.getElem?_eq_none (by omega)]
      rw [key]
      simp only [ne_eq, key]

theorem LastPlace.lt {mask : List (Int × Int)} {i j : Int} {t : Nat} (h : LastPlace mask i j t) : t < mask.length := by
  by_contra c
  have := h.1
  rw [List.getElem?_eq_none (by omega)] at this
  cases this

theorem offsetIn_eq (d : DIMap Nat) (i j : Int) : offsetIn d i j = match find2 d.rmap i j with
    | some t => .ok t
    | none => .throw := by
  unfold offsetIn find2
  cases OMap.find? i d.rmap with
  | none => rfl
  | some r => dsimp only [Option.bind_some]; cases OMap.find? j r <;> rfl

end BSM

/-! ## Rows of a matrix, and sums of products added to them -/

/-- `rows(i,n)` inside the matrix. -/
theorem RV2.rowsAt_ok (v : RV2) (i n : Nat) (h : i + n ≤ v.n0) :
    v.rowsAt (i : Int) n = .ok ⟨v.arr + v.s0 * i, n, v.n1, v.s0, v.s1⟩ := by
  unfold RV2.rowsAt
  have h1 : ((i : Int) + n ≤ v.n0) := by exact_mod_cast h
  have h2 : ¬ ((v.arr : Int) + v.s0 * i < 0) := not_lt.2 (by positivity)
  have h3 : ((v.arr : Int) + v.s0 * i).toNat = v.arr + v.s0 * i := by
    rw [show ((v.arr : Int) + v.s0 * i) = ((v.arr + v.s0 * i : Nat) : Int) by push_cast; rfl, Int.toNat_natCast]
  simp [h1, h2, h3]

theorem RV2.rowsAt_throw (v : RV2) (i : Int) (n : Nat) (h : ¬ i + n ≤ v.n0) : v.rowsAt i n = .throw := by
  unfold RV2.rowsAt
  simp [h]

/-- The rows from `i` on. -/
def RV2.from' (v : RV2) (i n : Nat) : RV2 := ⟨v.arr + v.s0 * i, n, v.n1, v.s0, v.s1⟩

theorem RV2.from_cell (v : RV2) (i n a c : Nat) : (v.from' i n).cell a c = v.cell (i + a) c := by
  simp [RV2.from', RV2.cell, Nat.mul_add]; omega

/-- A product added to rows of `r`. -/
theorem rows_step [NonUnitalNonAssocSemiring α] (r : RV2) (i bn : Nat) (hb : 0 < bn ∨ r.n0 = 0) (hi : bn * i + bn ≤ r.n0) (hr : r.Inj)
    (x y : RV2) (h0 : x.n0 = bn) (h1 : y.n1 = r.n1) (hI : y.n0 = x.n1) (hx : r.Apart x) (hy : r.Apart y)
    (m : Buf α) (R X Y : Nat → Nat → α) (hR : r.Has m R) (hX : x.Has m X) (hY : y.Has m Y) :
    ∃ m', (r.from' (bn * i) bn).addMatmulAA x y m = .ok m' ∧ r.Becomes m m' fun a c =>
      R a c + if a / bn = i then ∑ k ∈ Finset.range x.n1, X (a % bn) k * Y k c else 0 := by
  obtain ⟨m', g1, g2, g3⟩ := C134_AA (r.from' (bn * i) bn) x y h0 h1 hI
    (by
      intro a ha b hb k hk l hl e
      rw [RV2.from_cell, RV2.from_cell] at e
      have ha' : a < bn := ha
      have hk' : k < bn := hk
      have := hr _ (by omega) _ hb _ (by omega) _ hl e
      exact ⟨by omega, this.2⟩)
    (by
      intro a ha b hb k hk l hl
      rw [RV2.from_cell]
      have ha' : a < bn := ha
      exact hx _ (by omega) _ hb _ hk _ hl)
    (by
      intro a ha b hb k hk l hl
      rw [RV2.from_cell]
      have ha' : a < bn := ha
      exact hy _ (by omega) _ hb _ hk _ hl)
    m (fun a c => R (bn * i + a) c) X Y
    (by
      intro a ha b hb
      rw [RV2.from_cell]
      have ha' : a < bn := ha
      exact hR _ (by omega) _ hb) hX hY
  refine ⟨m', g1, ?_, ?_⟩
  · intro a ha c hc
    dsimp only
    by_cases e : a / bn = i ∧ 0 < bn
    · rw [if_pos e.1]
      have h2 : a % bn < bn := Nat.mod_lt _ e.2
      have h3 : a = bn * i + a % bn := by rw [← e.1]; exact (Nat.div_add_mod a bn).symm
      have := g2 (a % bn) h2 c hc
      rw [RV2.from_cell, ← h3] at this
      rw [this]
      dsimp only
      rw [← h3]
      rfl
    · have hb' : 0 < bn := hb.resolve_right (by omega)
      have hne : a / bn ≠ i := fun c => e ⟨c, hb'⟩
      rw [if_neg hne, add_zero, g3 _ ?_]
      · exact hR a ha c hc
      · intro a' ha' c' hc' ee
        rw [RV2.from_cell] at ee
        have ha'' : a' < bn := ha'
        have := hr _ ha _ hc _ (by omega) _ hc' ee
        rw [this.1, RV2.flat_div ha''] at hne
        exact hne rfl
  · intro z hz
    refine g3 z ?_
    intro a ha c hc
    rw [RV2.from_cell]
    have ha' : a < bn := ha
    exact hz _ (by omega) _ hc


/-- Adding one term after another. -/
theorem adds_run [AddCommMonoid α] {ι : Type _} (r : RV2) (step : Buf α → ι → Res (Buf α)) (g : ι → Nat → Nat → α) (m0 : Buf α) :
    ∀ (l : List ι), (∀ e ∈ l, ∀ (m : Buf α) (R : Nat → Nat → α), r.Becomes m0 m R →
      ∃ m', step m e = .ok m' ∧ r.Becomes m m' fun a c => R a c + g e a c) →
    ∀ (m : Buf α) (R : Nat → Nat → α), r.Becomes m0 m R →
    ∃ m', Res.forM l m step = .ok m' ∧ r.Becomes m0 m' fun a c => R a c + (l.map fun e => g e a c).sum
  | [], _, m, R, hR => ⟨m, rfl, by simpa using hR.1, hR.2⟩
  | e :: l, h, m, R, hR => by
    obtain ⟨m1, h1, h2, h3⟩ := h e (by simp) m R hR
    obtain ⟨m', h4, h5, h6⟩ := adds_run r step g m0 l (fun e he => h e (List.mem_cons_of_mem _ he)) m1 _
      ⟨h2, fun c hc => (h3 c hc).trans (hR.2 c hc)⟩
    refine ⟨m', by rw [Res.forM_cons, h1]; exact h4, ?_, h6⟩
    intro a ha c hc
    rw [h5 a ha c hc]
    dsimp only
    rw [List.map_cons, List.sum_cons, add_assoc]

theorem Becomes.other {r x : RV2} (h : r.Apart x) {m m' : Buf α} {R : Nat → Nat → α} (hm : r.Becomes m m' R) {X : Nat → Nat → α}
    (hX : x.Has m X) : x.Has m' X := by
  intro i hi j hj
  rw [hm.2 _ fun a ha b hb e => h a ha b hb i hi j hj e.symm]
  exact hX i hi j hj

/-! ## Sums over the blocks -/

theorem Before.pos_ne {a b : Int × Int × υ} (h : Before a b) : ¬ (a.1 = b.1 ∧ a.2.1 = b.2.1) := by
  rintro ⟨h1, h2⟩
  rcases h with h | h <;> omega

theorem blocks_single [AddCommMonoid α] (I J : Int) (g : υ → α) : ∀ (l : List (Int × Int × υ)),
    l.Pairwise (fun a b => ¬ (a.1 = b.1 ∧ a.2.1 = b.2.1)) →
    (∀ t, (I, J, t) ∈ l → (l.map fun e => if e.1 = I ∧ e.2.1 = J then g e.2.2 else 0).sum = g t) ∧
    ((∀ t, (I, J, t) ∉ l) → (l.map fun e => if e.1 = I ∧ e.2.1 = J then g e.2.2 else 0).sum = 0)
  | [], _ => ⟨by simp, by simp⟩
  | e :: l, h => by
    obtain ⟨h1, h2⟩ := List.pairwise_cons.mp h
    obtain ⟨i1, i2⟩ := blocks_single I J g l h2
    rw [List.map_cons, List.sum_cons]
    constructor
    · intro t ht
      by_cases c : e.1 = I ∧ e.2.1 = J
      · rw [if_pos c, i2, add_zero]
        · rcases List.mem_cons.mp ht with d | d
          · rw [← d]
          · exact absurd c (h1 _ d)
        · intro s hs
          exact h1 _ hs c
      · rw [if_neg c, zero_add]
        rcases List.mem_cons.mp ht with d | d
        · rw [← d] at c; exact absurd ⟨rfl, rfl⟩ c
        · exact i1 t d
    · intro hn
      rw [if_neg, zero_add, i2]
      · intro t ht; exact hn t (List.mem_cons_of_mem _ ht)
      · rintro ⟨rfl, rfl⟩; exact hn e.2.2 (by simp)

/-- The terms of one row of blocks, by columns. -/
theorem blocks_row [AddCommMonoid α] (I : Int) (n : Nat) (g : Nat → υ → α) (l : List (Int × Int × υ))
    (hr : ∀ e ∈ l, e.1 = I → 0 ≤ e.2.1 ∧ e.2.1 < n) :
    (l.map fun e => if e.1 = I then g e.2.1.toNat e.2.2 else 0).sum =
      ∑ j ∈ Finset.range n, (l.map fun e => if e.1 = I ∧ e.2.1 = (j : Int) then g j e.2.2 else 0).sum := by
  induction l with
  | nil => simp
  | cons e l ih =>
    simp only [List.map_cons, List.sum_cons, Finset.sum_add_distrib]
    rw [ih fun e he => hr e (List.mem_cons_of_mem _ he)]
    congr 1
    by_cases c : e.1 = I
    · obtain ⟨h1, h2⟩ := hr e (by simp) c
      rw [if_pos c, Finset.sum_eq_single e.2.1.toNat]
      · rw [if_pos ⟨c, (Int.toNat_of_nonneg h1).symm⟩]
      · intro j _ hj
        rw [if_neg]
        rintro ⟨_, e2⟩
        apply hj
        rw [e2, Int.toNat_natCast]
      · intro hn
        exfalso
        apply hn
        rw [Finset.mem_range]
        omega
    · rw [if_neg c]
      symm
      apply Finset.sum_eq_zero
      intro j _
      rw [if_neg fun h => c h.1]

/-- A sum over `n` blocks of `k`. -/
theorem blocks_sum [AddCommMonoid α] (n k : Nat) (f : Nat → α) :
    ∑ b ∈ Finset.range (n * k), f b = ∑ j ∈ Finset.range n, ∑ i ∈ Finset.range k, f (k * j + i) := by
  induction n with
  | zero => simp
  | succ n ih => rw [Nat.succ_mul, Finset.sum_range_add, ih, Finset.sum_range_succ, Nat.mul_comm n k]

/-- What the blocks of the block row of `a` give together. -/
theorem blocks_dense [NonUnitalNonAssocSemiring α] (off : Int → Int → Option Nat) (E : Nat → Nat → Nat → α) (bn bm mb a : Nat)
    (Y : Nat → α) (l : List (Int × Int × Nat)) (hl : l.Pairwise fun a b => ¬ (a.1 = b.1 ∧ a.2.1 = b.2.1)) (hm : ∀ i j t, (i, j, t) ∈ l ↔ off i j = some t)
    (hr : ∀ e ∈ l, 0 ≤ e.2.1 ∧ e.2.1 < mb) :
    (l.map fun e => if e.1 = ((a / bn : Nat) : Int) then
        ∑ k ∈ Finset.range bm, E e.2.2 (a % bn) k * Y (bm * e.2.1.toNat + k) else 0).sum =
      ∑ b ∈ Finset.range (mb * bm), dense off E bn bm a b * Y b := by
  rw [blocks_row ((a / bn : Nat) : Int) mb (fun j t => ∑ k ∈ Finset.range bm, E t (a % bn) k * Y (bm * j + k)) l
    (fun e he _ => hr e he), blocks_sum]
  apply Finset.sum_congr rfl
  intro j _
  obtain ⟨s1, s2⟩ := blocks_single ((a / bn : Nat) : Int) (j : Int)
    (fun t => ∑ k ∈ Finset.range bm, E t (a % bn) k * Y (bm * j + k)) l hl
  cases h : off ((a / bn : Nat) : Int) (j : Int) with
  | some t =>
    rw [s1 t ((hm _ _ _).2 h)]
    apply Finset.sum_congr rfl
    intro k hk
    rw [Finset.mem_range] at hk
    unfold dense
    rw [RV2.flat_div hk, RV2.flat_mod hk, h]
  | none =>
    rw [s2 (fun t ht => by rw [(hm _ _ _).1 ht] at h; cases h)]
    symm
    apply Finset.sum_eq_zero
    intro k hk
    rw [Finset.mem_range] at hk
    unfold dense
    rw [RV2.flat_div hk, h, zero_mul]

end Cnine
