import Verif.Model.Planted
import Verif.Props.LabeledTree

/-! # C128, C129: searching a graph for copies of another -/

namespace Cnine

namespace PT

variable {α : Type} [DecidableEq α]

omit [DecidableEq α] in
/-- The paths from a root with exactly `d` labels. -/
def deep : PT α → Nat → List (List α)
  | nil, _ => []
  | cons _ _ _, 0 => []
  | cons x _ r, 1 => [x] :: deep r 1
  | cons x c r, d + 2 => (deep c (d + 1)).map (x :: ·) ++ deep r (d + 2)

omit [DecidableEq α] in
/-- All leaves are on level `d`. -/
def Level : PT α → Nat → Prop
  | nil, _ => True
  | cons _ _ _, 0 => False
  | cons _ c r, 1 => c = nil ∧ Level r 1
  | cons _ c r, d + 2 => c ≠ nil ∧ Level c (d + 1) ∧ Level r (d + 2)

omit [DecidableEq α] in
theorem mem_deep : ∀ (t : PT α) (d : Nat) (p : List α), p ∈ deep t (d + 1) ↔ Walk t p ∧ p.length = d + 1 := by
  intro t
  induction t with
  | nil =>
    intro d p
    constructor
    · intro h; simp [deep] at h
    · rintro ⟨h, hl⟩; cases h; simp at hl
  | cons x c r ihc ihr =>
    intro d p
    cases d with
    | zero =>
      rw [deep, List.mem_cons, ihr]
      constructor
      · rintro (rfl | ⟨h1, h2⟩)
        · exact ⟨.down (.stop _), rfl⟩
        · exact ⟨.right h1, h2⟩
      · rintro ⟨h1, h2⟩
        cases h1 with
        | stop => simp at h2
        | down h => left; simp at h2; rw [h2]
        | right h => exact Or.inr ⟨h, h2⟩
    | succ d =>
      rw [deep, List.mem_append, List.mem_map, ihr]
      constructor
      · rintro (⟨q, h, rfl⟩ | ⟨h1, h2⟩)
        · rw [ihc] at h
          exact ⟨.down h.1, by simp [h.2]⟩
        · exact ⟨.right h1, h2⟩
      · rintro ⟨h1, h2⟩
        cases h1 with
        | stop => simp at h2
        | down h => left; exact ⟨_, (ihc _ _).mpr ⟨h, by simpa using h2⟩, rfl⟩
        | right h => exact Or.inr ⟨h, h2⟩

omit [DecidableEq α] in
theorem deep_app : ∀ (s t : PT α) (d : Nat), deep (s.app t) (d + 1) = deep s (d + 1) ++ deep t (d + 1) := by
  intro s t
  induction s with
  | nil => intro d; rfl
  | cons x c r _ ihr =>
    intro d
    unfold app
    cases d with
    | zero => rw [deep, deep, ihr]; rfl
    | succ d => rw [deep, deep, ihr, List.append_assoc]

omit [DecidableEq α] in
theorem Level.app : ∀ {s t : PT α} {d : Nat}, Level s (d + 1) → Level t (d + 1) → Level (s.app t) (d + 1) := by
  intro s t
  induction s with
  | nil => intro d _ h; exact h
  | cons x c r _ ihr =>
    intro d h1 h2
    unfold PT.app
    cases d with
    | zero => rw [Level] at h1 ⊢; exact ⟨h1.1, ihr h1.2 h2⟩
    | succ d => rw [Level] at h1 ⊢; exact ⟨h1.1, h1.2.1, ihr h1.2.2 h2⟩

omit [DecidableEq α] in
theorem kids_level : ∀ (t : PT α) (d : Nat) (pre : List α), Level t (d + 1) → kids t pre = (deep t (d + 1)).map (pre ++ ·) := by
  intro t
  induction t with
  | nil => intro d pre _; rfl
  | cons x c r ihc ihr =>
    intro d pre h
    unfold kids
    cases d with
    | zero =>
      rw [Level] at h
      rw [deep, h.1, ihr 0 pre h.2]; rfl
    | succ d =>
      rw [Level] at h
      rw [deep, ihr _ pre h.2.2, ihc d _ h.2.1, List.map_append, List.map_map]
      congr 1
      cases c with
      | nil => exact absurd rfl h.1
      | cons y e s =>
        rw [here, List.nil_append]
        apply List.map_congr_left
        intro p _
        simp

end PT

namespace Planted

open SGraph

variable {α : Type} [Zero α] [DecidableEq α]

omit [DecidableEq α] in
/-- Specification: the weight between two vertices, zero without an edge. -/
def wt (l : List (Int × Int × α)) (i j : Int) : α := (lastU l i j).getD 0

omit [DecidableEq α] in
theorem wt_comm (l : List (Int × Int × α)) (i j : Int) : wt l i j = wt l j i := by unfold wt; rw [lastU_comm]

omit [DecidableEq α] in
theorem weight_sets (n : Int) (l : List (Int × Int × α)) (i j : Int) : weight (sets n l) i j = wt l i j := by
  unfold weight wt
  exact (C70_weight n l 0 i j).1

/-- What the search uses of the traversal of the spanning tree of `H`. -/
structure Trav (n : Nat) (lh : List (Int × Int × α)) (tr : List (Int × Int)) : Prop where
  len : tr.length = n
  nodup : (tr.map Prod.fst).Nodup
  mem : ∀ v, v ∈ tr.map Prod.fst ↔ 0 ≤ v ∧ v < n
  parent : ∀ (k : Nat) (x q : Int), tr[k + 1]? = some (x, q) → 0 ≤ q ∧ q < (k : Int) + 1 ∧ ∃ y z, tr[q.toNat]? = some (y, z) ∧ wt lh y x ≠ 0

/-- The vertices `q` can be the images of the first vertices of the list `vs`. -/
structure Fit (N : Nat) (lh lg : List (Int × Int × α)) (vs q : List Int) : Prop where
  nodup : q.Nodup
  range : ∀ w ∈ q, 0 ≤ w ∧ w < N
  wts : ∀ (i k : Nat) (x y a b : Int), i < k → vs[i]? = some x → vs[k]? = some y → q[i]? = some a → q[k]? = some b → wt lh x y = wt lg a b

/-- `asg` holds the images `q` of the first vertices of `vs` and −1 for the others. -/
structure Asg (n : Nat) (vs q asg : List Int) : Prop where
  len : asg.length = n
  val : ∀ (k : Nat) (x : Int), vs[k]? = some x → asg[x.toNat]? = some (q[k]?.getD (-1))

section
variable {n : Nat} {vs q asg : List Int} (hnd : vs.Nodup) (hmem : ∀ v, v ∈ vs ↔ 0 ≤ v ∧ v < n) (ha : Asg n vs q asg)
  (hq : q.Nodup) (hpos : ∀ w ∈ q, 0 ≤ w)
include hmem ha

theorem asg_at {u : Int} (h0 : 0 ≤ u) (hu : u < n) : ∃ k : Nat, vs[k]? = some u ∧ at_ asg u = .ok (q[k]?.getD (-1)) := by
  obtain ⟨k, hk⟩ := List.getElem?_of_mem ((hmem u).mpr ⟨h0, hu⟩)
  refine ⟨k, hk, ?_⟩
  unfold at_
  rw [if_neg (by omega), ha.val k u hk]

theorem asg_mem (hlen : q.length ≤ vs.length) {a : Int} (h0 : 0 ≤ a) : a ∈ asg ↔ a ∈ q := by
  constructor
  · intro h
    obtain ⟨i, hi⟩ := List.getElem?_of_mem h
    have hi' := (List.getElem?_eq_some_iff.mp hi).1
    rw [ha.len] at hi'
    obtain ⟨k, hk⟩ := List.getElem?_of_mem ((hmem (i : Int)).mpr ⟨by omega, by omega⟩)
    have := ha.val k i hk
    rw [Int.toNat_natCast, hi] at this
    injection this with this
    cases e : q[k]? with
    | none => rw [e] at this; simp at this; omega
    | some b => rw [e] at this; simp at this; rw [this]; exact List.mem_of_getElem? e
  · intro h
    obtain ⟨k, hk⟩ := List.getElem?_of_mem h
    have hk' := (List.getElem?_eq_some_iff.mp hk).1
    have := ha.val k vs[k] (List.getElem?_eq_getElem (by omega))
    rw [hk] at this
    exact List.mem_of_getElem? this

include hq hpos in
theorem asg_idx {k : Nat} {a y : Int} (hk : q[k]? = some a) (hy : vs[k]? = some y) : asg.findIdx? (fun b => b == a) = some y.toNat := by
  have h0 : 0 ≤ a := hpos a (List.mem_of_getElem? hk)
  have hy0 := (hmem y).mp (List.mem_of_getElem? hy)
  have hv := ha.val k y hy
  rw [hk] at hv
  obtain ⟨hl, he⟩ := List.getElem?_eq_some_iff.mp hv
  rw [List.findIdx?_eq_some_iff_getElem]
  refine ⟨hl, by simp [he], ?_⟩
  intro j hj hc
  have hj' : j < asg.length := by omega
  rw [ha.len] at hj'
  obtain ⟨i, hi⟩ := List.getElem?_of_mem ((hmem (j : Int)).mpr ⟨by omega, by omega⟩)
  have hvi := ha.val i j hi
  rw [Int.toNat_natCast, List.getElem?_eq_getElem (by rw [ha.len]; exact hj')] at hvi
  have hc' : asg[j]'(by rw [ha.len]; exact hj') = a := by simpa using hc
  rw [hc'] at hvi
  injection hvi with hvi
  cases e : q[i]? with
  | none => rw [e] at hvi; simp at hvi; omega
  | some b =>
    rw [e] at hvi
    have hvi : a = b := by simpa using hvi
    subst hvi
    have hik : i = k := by
      obtain ⟨h1, e1⟩ := List.getElem?_eq_some_iff.mp e
      obtain ⟨h2, e2⟩ := List.getElem?_eq_some_iff.mp hk
      exact (List.Nodup.getElem_inj_iff hq).mp (e1.trans e2.symm)
    subst hik
    rw [hi] at hy
    injection hy with hy
    omega

include hpos in
theorem checkH_ok (g : SGraph α) (w : Int) (hnd : vs.Nodup) : ∀ l : UMap Int α, (∀ e ∈ l, 0 ≤ e.1 ∧ e.1 < n) →
    ∃ b, checkH g asg w l = .ok b ∧
      (b = true ↔ ∀ e ∈ l, ∀ (k : Nat) (a : Int), vs[k]? = some e.1 → q[k]? = some a → e.2 = weight g w a) := by
  intro l
  induction l with
  | nil => intro _; exact ⟨true, rfl, by simp⟩
  | cons e l ih =>
    intro hl
    obtain ⟨u, x⟩ := e
    obtain ⟨b, hb, hb'⟩ := ih (fun e he => hl e (List.mem_cons_of_mem _ he))
    have hu := hl (u, x) List.mem_cons_self
    obtain ⟨k, hk, hat⟩ := asg_at hmem ha hu.1 hu.2
    have huniq : ∀ i, vs[i]? = some u → i = k := by
      intro i hi
      obtain ⟨h1, e1⟩ := List.getElem?_eq_some_iff.mp hi
      obtain ⟨h2, e2⟩ := List.getElem?_eq_some_iff.mp hk
      exact (List.Nodup.getElem_inj_iff hnd).mp (e1.trans e2.symm)
    rw [checkH, hat, Res.ok_bind]
    cases e : q[k]? with
    | none =>
      rw [Option.getD_none, if_pos rfl]
      refine ⟨b, hb, hb'.trans ⟨fun h => ?_, fun h e he => h e (List.mem_cons_of_mem _ he)⟩⟩
      intro e' he' i a hi hqa
      rcases List.mem_cons.mp he' with rfl | he'
      · rw [huniq i hi, e] at hqa; cases hqa
      · exact h e' he' i a hi hqa
    | some a =>
      have ha0 : 0 ≤ a := hpos a (List.mem_of_getElem? e)
      rw [Option.getD_some, if_neg (by omega)]
      by_cases c : x ≠ weight g w a
      · rw [if_pos c]
        refine ⟨false, rfl, ⟨(fun h => by cases h), fun h => ?_⟩⟩
        exact absurd (h (u, x) List.mem_cons_self k a hk e) c
      · rw [if_neg c]
        refine ⟨b, hb, hb'.trans ⟨fun h => ?_, fun h e he => h e (List.mem_cons_of_mem _ he)⟩⟩
        intro e' he' i a' hi hqa
        rcases List.mem_cons.mp he' with rfl | he'
        · rw [huniq i hi, e] at hqa
          injection hqa with hqa
          subst hqa
          exact not_not.mp c
        · exact h e' he' i a' hi hqa

include hq hpos in
theorem checkG_ok (hlen : q.length ≤ vs.length) (h : SGraph α) (v : Int) : ∀ l : UMap Int α, (∀ e ∈ l, 0 ≤ e.1) →
    (checkG h asg v l = true ↔ ∀ e ∈ l, ∀ (k : Nat) (y : Int), q[k]? = some e.1 → vs[k]? = some y → e.2 = weight h v y) := by
  intro l
  induction l with
  | nil => intro _; simp [checkG]
  | cons e l ih =>
    intro hl
    obtain ⟨u, x⟩ := e
    have ih := ih (fun e he => hl e (List.mem_cons_of_mem _ he))
    have hu : 0 ≤ u := hl (u, x) List.mem_cons_self
    unfold checkG
    by_cases hm : u ∈ q
    · obtain ⟨k, hk⟩ := List.getElem?_of_mem hm
      have hk' := (List.getElem?_eq_some_iff.mp hk).1
      have hy : vs[k]? = some (vs[k]'(by omega)) := List.getElem?_eq_getElem _
      have hy0 := (hmem _).mp (List.mem_of_getElem? hy)
      rw [asg_idx hmem ha hq hpos hk hy]
      dsimp only
      rw [Int.toNat_of_nonneg hy0.1]
      have huniq : ∀ i, q[i]? = some u → i = k := by
        intro i hi
        obtain ⟨h1, e1⟩ := List.getElem?_eq_some_iff.mp hi
        obtain ⟨h2, e2⟩ := List.getElem?_eq_some_iff.mp hk
        exact (List.Nodup.getElem_inj_iff hq).mp (e1.trans e2.symm)
      by_cases c : x ≠ weight h v (vs[k]'(by omega))
      · rw [if_pos c]
        refine ⟨(fun h => by cases h), fun h => ?_⟩
        exact absurd (h (u, x) List.mem_cons_self k _ hk hy) c
      · rw [if_neg c, ih]
        refine ⟨fun h => ?_, fun h e he => h e (List.mem_cons_of_mem _ he)⟩
        intro e' he' i y hi hiy
        rcases List.mem_cons.mp he' with rfl | he'
        · have := huniq i hi
          subst this
          rw [hy] at hiy
          injection hiy with hiy
          rw [← hiy]
          exact not_not.mp c
        · exact h e' he' i y hi hiy
    · have : asg.findIdx? (fun b => b == u) = none := by
        rw [List.findIdx?_eq_none_iff]
        intro b hb
        have : u ∉ asg := fun h => hm ((asg_mem hmem ha hlen hu).mp h)
        simp only [beq_eq_false_iff_ne]
        rintro rfl
        exact this hb
      rw [this]
      dsimp only
      rw [ih]
      refine ⟨fun h => ?_, fun h e he => h e (List.mem_cons_of_mem _ he)⟩
      intro e' he' i y hi hiy
      rcases List.mem_cons.mp he' with rfl | he'
      · exact absurd (List.mem_of_getElem? hi) hm
      · exact h e' he' i y hi hiy

end

/-! ## One step -/

/-- A complete image: the vertices of `H`, in the order `vs`, go to `p`. -/
def Full (n N : Nat) (lh lg : List (Int × Int × α)) (vs p : List Int) : Prop := p.length = n ∧ Fit N lh lg vs p

omit [DecidableEq α] in
theorem Fit.take {N : Nat} {lh lg : List (Int × Int × α)} {vs q p : List Int} (h : Fit N lh lg vs p) (hp : q <+: p) : Fit N lh lg vs q := by
  obtain ⟨r, rfl⟩ := hp
  refine ⟨(List.nodup_append.mp h.nodup).1, fun w hw => h.range w (List.mem_append_left _ hw), ?_⟩
  intro i k x y a b hik hx hy ha hb
  refine h.wts i k x y a b hik hx hy ?_ ?_
  · rw [List.getElem?_append_left (List.getElem?_eq_some_iff.mp ha).1]; exact ha
  · rw [List.getElem?_append_left (List.getElem?_eq_some_iff.mp hb).1]; exact hb

omit [DecidableEq α] in
theorem fit_snoc {N : Nat} {lh lg : List (Int × Int × α)} {vs q : List Int} {v w : Int} (h : Fit N lh lg vs q)
    (hv : vs[q.length]? = some v) (hw : w ∉ q) (hr : 0 ≤ w ∧ w < N) :
    Fit N lh lg vs (q ++ [w]) ↔ ∀ (k : Nat) (y a : Int), vs[k]? = some y → q[k]? = some a → wt lh y v = wt lg a w := by
  constructor
  · intro f k y a hy ha
    have hk := (List.getElem?_eq_some_iff.mp ha).1
    refine f.wts k q.length y v a w hk hy hv ?_ ?_
    · rw [List.getElem?_append_left hk]; exact ha
    · rw [List.getElem?_append_right (by omega)]; simp
  · intro f
    refine ⟨?_, ?_, ?_⟩
    · rw [List.nodup_append]
      exact ⟨h.nodup, by simp, by intro a ha b hb; rw [List.mem_singleton] at hb; subst hb; rintro rfl; exact hw ha⟩
    · intro x hx
      rcases List.mem_append.mp hx with hx | hx
      · exact h.range x hx
      · rw [List.mem_singleton] at hx; subst hx; exact hr
    · intro i k x y a b hik hx hy ha hb
      have hk := (List.getElem?_eq_some_iff.mp hb).1
      rw [List.length_append, List.length_singleton] at hk
      rw [List.getElem?_append_left (by omega)] at ha
      by_cases c : k < q.length
      · rw [List.getElem?_append_left c] at hb
        exact h.wts i k x y a b hik hx hy ha hb
      · have hkq : k = q.length := by omega
        subst hkq
        rw [List.getElem?_append_right (by omega)] at hb
        rw [hv] at hy
        have hb : w = b := by simpa using hb
        injection hy with hy
        subst hb hy
        exact f i x a hx ha

omit [Zero α] [DecidableEq α] in
theorem row_keys {n : Nat} {l : List (Int × Int × α)} (h : InRange n l) (i : Int) :
    ∀ e ∈ ((sets n l).row i).1, lastU l i e.1 = some e.2 ∧ 0 ≤ e.1 ∧ e.1 < n := by
  intro e he
  obtain ⟨h1, h2⟩ := sets_look (n : Int) l
  obtain ⟨g1, g2⟩ := mem_row h1 i
  have : lastU l i e.1 = some e.2 := by
    rw [← h2, ← g2]
    exact (UMap.mem_iff g1).mp he
  have hb := h.lt (i := i) (j := e.1) (by rw [this]; rfl)
  exact ⟨this, hb.2.2⟩

omit [Zero α] [DecidableEq α] in
theorem row_mem {n : Nat} {l : List (Int × Int × α)} {i j : Int} {x : α} (h : lastU l i j = some x) : (j, x) ∈ ((sets n l).row i).1 := by
  obtain ⟨h1, h2⟩ := sets_look (n : Int) l
  obtain ⟨g1, g2⟩ := mem_row h1 i
  rw [UMap.mem_iff g1, g2, h2]
  exact h

/-- The two loops together test exactly that the new vertex fits. -/
theorem check_ok {n N : Nat} {lh lg : List (Int × Int × α)} (hh : InRange n lh) (hg : InRange N lg) {vs q asg : List Int} {v w : Int}
    (hnd : vs.Nodup) (hmem : ∀ v, v ∈ vs ↔ 0 ≤ v ∧ v < n) (ha : Asg n vs q asg) (hf : Fit N lh lg vs q)
    (hv : vs[q.length]? = some v) (hw : w ∉ q) (hr : 0 ≤ w ∧ w < N) :
    ∃ b, checkH (sets N lg) asg w ((sets n lh).row v).1 = .ok b ∧
      ((b = true ∧ checkG (sets n lh) asg v ((sets N lg).row w).1 = true) ↔ Fit N lh lg vs (q ++ [w])) := by
  have hpos : ∀ x ∈ q, 0 ≤ x := fun x hx => (hf.range x hx).1
  have hlen : q.length ≤ vs.length := by have := (List.getElem?_eq_some_iff.mp hv).1; omega
  obtain ⟨b, hb, hb'⟩ := checkH_ok hmem ha hpos (sets (N : Int) lg) w hnd ((sets n lh).row v).1 (fun e he => (row_keys hh v e he).2)
  have hG := checkG_ok hmem ha hf.nodup hpos hlen (sets (n : Int) lh) v ((sets N lg).row w).1 (fun e he => (row_keys hg w e he).2.1)
  refine ⟨b, hb, ?_⟩
  rw [hb', hG, fit_snoc hf hv hw hr]
  constructor
  · rintro ⟨h1, h2⟩ k y a hy hqa
    cases e : lastU lh v y with
    | some x =>
      have := h1 (y, x) (row_mem e) k a hy hqa
      rw [weight_sets] at this
      rw [wt_comm lh, wt_comm lg, ← this]
      unfold wt
      rw [e]; rfl
    | none =>
      have hz : wt lh y v = 0 := by rw [wt_comm]; unfold wt; rw [e]; rfl
      rw [hz]
      cases e' : lastU lg w a with
      | none => rw [wt_comm]; unfold wt; rw [e']; rfl
      | some x =>
        have := h2 (a, x) (row_mem e') k y hqa hy
        rw [weight_sets, wt_comm, hz] at this
        rw [wt_comm]
        unfold wt
        rw [e']
        exact this.symm
  · intro h
    constructor
    · intro e he k a hk hqa
      have := h k e.1 a hk hqa
      rw [weight_sets, wt_comm lg w a, ← this, wt_comm]
      unfold wt
      rw [(row_keys hh v e he).1]; rfl
    · intro e he k y hk hy
      have := h k y e.1 hy hk
      rw [weight_sets, wt_comm lh v y, this, wt_comm]
      unfold wt
      rw [(row_keys hg w e he).1]; rfl

theorem Asg.snoc {n : Nat} {vs q asg : List Int} {v w : Int} (hnd : vs.Nodup) (hmem : ∀ v, v ∈ vs ↔ 0 ≤ v ∧ v < n) (ha : Asg n vs q asg)
    (hv : vs[q.length]? = some v) : Asg n vs (q ++ [w]) (asg.set v.toNat w) ∧ (asg.set v.toNat w).set v.toNat (-1) = asg := by
  have hv0 := (hmem v).mp (List.mem_of_getElem? hv)
  have hval := ha.val q.length v hv
  rw [List.getElem?_eq_none (Nat.le_refl q.length), Option.getD_none] at hval
  constructor
  · refine ⟨by rw [List.length_set]; exact ha.len, ?_⟩
    intro k x hx
    have hx0 := (hmem x).mp (List.mem_of_getElem? hx)
    by_cases c : k = q.length
    · subst c
      rw [hv] at hx
      injection hx with hx
      subst hx
      rw [List.getElem?_set_self (by rw [ha.len]; omega), List.getElem?_append_right (by omega)]
      simp
    · have hne : x ≠ v := by
        rintro rfl
        obtain ⟨h1, e1⟩ := List.getElem?_eq_some_iff.mp hx
        obtain ⟨h2, e2⟩ := List.getElem?_eq_some_iff.mp hv
        exact c ((List.Nodup.getElem_inj_iff hnd).mp (e1.trans e2.symm))
      rw [List.getElem?_set_ne (by omega), ha.val k x hx]
      congr 2
      by_cases d : k < q.length
      · rw [List.getElem?_append_left d]
      · rw [List.getElem?_eq_none (by omega), List.getElem?_eq_none (by simp; omega)]
  · rw [List.set_set]
    apply List.ext_getElem?
    intro i
    by_cases c : v.toNat = i
    · subst c
      rw [List.getElem?_set_self (by rw [ha.len]; omega), hval]
    · rw [List.getElem?_set_ne c]

/-! ## The search -/

/-- The tree kept for a result of `make_subtree`. -/
def tree (w : Int) : Option (PT Int) → PT Int
  | none => .nil
  | some c => .cons w c .nil

/-- With the images `done` found before, `new` is a correct contribution for the images with property `P`. -/
structure Post (n N : Nat) (lh lg : List (Int × Int × α)) (vs : List Int) (done new : List (List Int)) (P : List Int → Prop) : Prop where
  full : ∀ p ∈ new, Full n N lh lg vs p
  dist : done.Pairwise (fun a b => ¬ a.Perm b) → (done ++ new).Pairwise (fun a b => ¬ a.Perm b)
  all : ∀ p, Full n N lh lg vs p → P p → ∃ p' ∈ done ++ new, p'.Perm p

omit [DecidableEq α] in
theorem Post.trans {n N : Nat} {lh lg : List (Int × Int × α)} {vs : List Int} {done new new' : List (List Int)} {P Q R : List Int → Prop}
    (h : Post n N lh lg vs done new P) (h' : Post n N lh lg vs (done ++ new) new' Q) (hR : ∀ p, R p → P p ∨ Q p) :
    Post n N lh lg vs done (new ++ new') R := by
  refine ⟨?_, ?_, ?_⟩
  · intro p hp
    rcases List.mem_append.mp hp with hp | hp
    · exact h.full p hp
    · exact h'.full p hp
  · intro hd
    rw [← List.append_assoc]
    exact h'.dist (h.dist hd)
  · intro p hp hr
    rw [← List.append_assoc]
    rcases hR p hr with hr | hr
    · obtain ⟨p', h1, h2⟩ := h.all p hp hr
      exact ⟨p', List.mem_append_left _ h1, h2⟩
    · exact h'.all p hp hr

/-- What a call of `make_subtree` at level `m` does. -/
def RecOk (n N : Nat) (lh lg : List (Int × Int × α)) (vs : List Int) (m : Nat)
    (rec : (PT Int → PT Int) → Int → List Int → Res (Option (PT Int) × List Int)) : Prop :=
  ∀ (ctx : PT Int → PT Int) (w : Int) (asg q : List Int) (done : List (List Int)), q.length = m → Asg n vs q asg → Fit N lh lg vs q →
    w ∉ q → (0 ≤ w ∧ w < N) → (∀ T, (ctx T).deep n = done ++ (T.deep (n - m)).map (q ++ ·)) →
    ∃ r, rec ctx w asg = .ok (r, asg) ∧ (tree w r).Level (n - m) ∧
      Post n N lh lg vs done (((tree w r).deep (n - m)).map (q ++ ·)) (fun p => q ++ [w] <+: p)

omit [DecidableEq α] in
theorem subLoop_ok {n N : Nat} {lh lg : List (Int × Int × α)} {vs : List Int} (hmem : ∀ v, v ∈ vs ↔ 0 ≤ v ∧ v < n) {m e : Nat}
    (hn : n = m + 2 + e) (hvs : vs.length = n)
    {rec : (PT Int → PT Int) → Int → List Int → Res (Option (PT Int) × List Int)} (hrec : RecOk n N lh lg vs (m + 1) rec)
    {ctx : PT Int → PT Int} {q asg : List Int} {w : Int} {done : List (List Int)} (hq : q.length = m) (ha : Asg n vs (q ++ [w]) asg)
    (hf : Fit N lh lg vs (q ++ [w])) (hctx : ∀ T, (ctx T).deep n = done ++ (T.deep (e + 2)).map (q ++ ·)) :
    ∀ (us : List Int) (K : PT Int), (∀ u ∈ us, 0 ≤ u ∧ u < N) →
      ∃ E, subLoop rec ctx w us K asg = .ok (K.app E, asg) ∧ E.Level (e + 1) ∧
        Post n N lh lg vs (done ++ (K.deep (e + 1)).map (q ++ [w] ++ ·)) ((E.deep (e + 1)).map (q ++ [w] ++ ·))
          (fun p => ∃ u ∈ us, u ∉ q ++ [w] ∧ q ++ [w] ++ [u] <+: p) := by
  intro us
  induction us with
  | nil =>
    intro K _
    refine ⟨.nil, by rw [PT.app_nil]; rfl, trivial, ?_, ?_, ?_⟩
    · intro p hp; simp [PT.deep] at hp
    · intro h; simpa [PT.deep] using h
    · rintro p _ ⟨u, hu, _⟩; cases hu
  | cons u us ih =>
    intro K hus
    have hu := hus u List.mem_cons_self
    have hus' : ∀ u ∈ us, 0 ≤ u ∧ u < N := fun u h => hus u (List.mem_cons_of_mem _ h)
    have hlen : (q ++ [w]).length ≤ vs.length := by simp; omega
    rw [subLoop]
    by_cases c : u ∈ asg
    · rw [if_pos c]
      obtain ⟨E, h1, h2, h3⟩ := ih K hus'
      refine ⟨E, h1, h2, h3.full, h3.dist, ?_⟩
      rintro p hp ⟨u', hu', hn', hpre⟩
      rcases List.mem_cons.mp hu' with rfl | hu'
      · exact absurd ((asg_mem hmem ha hlen hu.1).mp c) hn'
      · exact h3.all p hp ⟨u', hu', hn', hpre⟩
    · rw [if_neg c]
      have huq : u ∉ q ++ [w] := fun h => c ((asg_mem hmem ha hlen hu.1).mpr h)
      have hd : n - (m + 1) = e + 1 := by omega
      obtain ⟨r, h1, h2, h3⟩ := hrec (fun t => ctx (.cons w (K.app t) .nil)) u asg (q ++ [w]) (done ++ (K.deep (e + 1)).map (q ++ [w] ++ ·))
        (by simp [hq]) ha hf huq hu (by
          intro T
          rw [hctx, hd, PT.deep, PT.deep_app, PT.deep]
          simp [List.map_append, List.map_map, Function.comp_def])
      rw [hd] at h2 h3
      obtain ⟨E, g1, g2, g3⟩ := ih (K.app (tree u r)) hus'
      refine ⟨(tree u r).app E, ?_, h2.app g2, ?_⟩
      · rw [h1, Res.ok_bind, ← PT.app_app, ← g1]
        cases r with
        | none => dsimp only [tree]; rw [PT.app_nil]
        | some c => rfl
      · rw [PT.deep_app, List.map_append]
        rw [PT.deep_app, List.map_append, ← List.append_assoc] at g3
        refine h3.trans g3 ?_
        rintro p ⟨u', hu', hn', hpre⟩
        rcases List.mem_cons.mp hu' with rfl | hu'
        · exact Or.inl hpre
        · exact Or.inr ⟨u', hu', hn', hpre⟩

theorem asg_mem_full {n : Nat} {vs q asg : List Int} (hmem : ∀ v, v ∈ vs ↔ 0 ≤ v ∧ v < n) (ha : Asg n vs q asg) (hlen : q.length = vs.length)
    (a : Int) : a ∈ asg ↔ a ∈ q := by
  constructor
  · intro h
    obtain ⟨i, hi⟩ := List.getElem?_of_mem h
    have hi' := (List.getElem?_eq_some_iff.mp hi).1
    rw [ha.len] at hi'
    obtain ⟨k, hk⟩ := List.getElem?_of_mem ((hmem (i : Int)).mpr ⟨by omega, by omega⟩)
    have := ha.val k i hk
    have hk' := (List.getElem?_eq_some_iff.mp hk).1
    rw [Int.toNat_natCast, hi, List.getElem?_eq_getElem (by omega), Option.getD_some] at this
    injection this with this
    rw [this]
    exact List.getElem_mem _
  · intro h
    obtain ⟨k, hk⟩ := List.getElem?_of_mem h
    have hk' := (List.getElem?_eq_some_iff.mp hk).1
    have := ha.val k vs[k] (List.getElem?_eq_getElem (by omega))
    rw [hk] at this
    exact List.mem_of_getElem? this

theorem at_ok {β : Type} {v : List β} {i : Int} {x : β} (h0 : 0 ≤ i) (h : v[i.toNat]? = some x) : at_ v i = .ok x := by
  unfold at_
  rw [if_neg (by omega), h]

omit [Zero α] [DecidableEq α] in
theorem prefix_eq {q p : List Int} (h : q <+: p) (hl : p.length = q.length) : p = q := (h.eq_of_length hl.symm).symm

theorem makeSubtree_ok {n N : Nat} {lh lg : List (Int × Int × α)} (hh : InRange n lh) (hg : InRange N lg) {tr : List (Int × Int)}
    (ht : Trav n lh tr) : ∀ (f m : Nat), m < n → n ≤ m + f →
    RecOk n N lh lg (tr.map Prod.fst) m (makeSubtree (sets N lg) (sets n lh) tr f m) := by
  intro f
  induction f with
  | zero => intro m h1 h2; omega
  | succ f ih =>
    intro m hm hf ctx w asg q done hq ha hfit hw hr hctx
    have hmem := ht.mem
    have hnd := ht.nodup
    have hvl : (tr.map Prod.fst).length = n := by rw [List.length_map]; exact ht.len
    have hmt : m < tr.length := by rw [ht.len]; exact hm
    obtain ⟨v, pv⟩ : Int × Int := tr[m]
    have hetr : ∃ e, tr[m]? = some e := ⟨_, List.getElem?_eq_getElem hmt⟩
    obtain ⟨⟨v, pv⟩, hev⟩ := hetr
    have hv : (tr.map Prod.fst)[q.length]? = some v := by rw [hq, List.getElem?_map, hev]; rfl
    have hv0 := (hmem v).mp (List.mem_of_getElem? hv)
    obtain ⟨b, hb, hb'⟩ := check_ok hh hg hnd hmem ha hfit hv hw hr
    have hstart : makeSubtree (sets N lg) (sets n lh) tr (f + 1) m ctx w asg =
        (if b = false then .ok (none, asg) else
          if checkG (sets n lh) asg v ((sets N lg).row w).1 = false then .ok (none, asg) else
          assign (sets N lg) n tr (makeSubtree (sets N lg) (sets n lh) tr f (m + 1)) ctx v w m asg) := by
      unfold makeSubtree
      rw [assrt_ok hmt, Res.ok_bind, at_ok (v := tr) (i := (m : Int)) (by omega) (by rw [Int.toNat_natCast]; exact hev), Res.ok_bind]
      dsimp only
      rw [hb, Res.ok_bind, sets_n]
    rw [hstart]
    have hfail : ¬ Fit N lh lg (tr.map Prod.fst) (q ++ [w]) → ∃ r, (.ok (none, asg) : Res (Option (PT Int) × List Int)) = .ok (r, asg) ∧
        (tree w r).Level (n - m) ∧
        Post n N lh lg (tr.map Prod.fst) done (((tree w r).deep (n - m)).map (q ++ ·)) (fun p => q ++ [w] <+: p) := by
      intro hno
      refine ⟨none, rfl, trivial, ?_, ?_, ?_⟩
      · intro p hp; simp [tree, PT.deep] at hp
      · intro h; simpa [tree, PT.deep] using h
      · intro p hp hpre
        exact absurd (hp.2.take hpre) hno
    by_cases c1 : b = false
    · rw [if_pos c1]
      exact hfail (fun h => by have := (hb'.mpr h).1; rw [c1] at this; cases this)
    rw [if_neg c1]
    by_cases c2 : checkG (sets n lh) asg v ((sets N lg).row w).1 = false
    · rw [if_pos c2]
      exact hfail (fun h => by have := (hb'.mpr h).2; rw [c2] at this; cases this)
    rw [if_neg c2]
    have hfit' : Fit N lh lg (tr.map Prod.fst) (q ++ [w]) := hb'.mp ⟨by simpa using c1, by simpa using c2⟩
    obtain ⟨ha', hback⟩ := ha.snoc (w := w) hnd hmem hv
    have hat : at_ asg v = .ok (q[q.length]?.getD (-1)) := at_ok hv0.1 (ha.val _ _ hv)
    unfold assign
    rw [hat, Res.ok_bind]
    dsimp only
    by_cases c3 : (m : Int) = n - 1
    · -- all vertices have an image
      rw [if_pos c3, hback]
      have hnm : n - m = 1 := by omega
      have hql : (q ++ [w]).length = n := by simp; omega
      have hperm : ((asg.set v.toNat w).dedup).Perm (q ++ [w]) := by
        rw [List.perm_ext_iff_of_nodup (List.nodup_dedup _) hfit'.nodup]
        intro a
        rw [List.mem_dedup, asg_mem_full hmem ha' (by rw [hql, hvl])]
      have hdup : (ctx (.cons (-1) .nil .nil)).containsVec (asg.set v.toNat w) = true ↔ ∃ p ∈ done, p.Perm (q ++ [w]) := by
        rw [PT.C125_forest]
        obtain ⟨n', rfl⟩ : ∃ n', n = n' + 1 := ⟨n - 1, by omega⟩
        have hdeep := hctx (.cons (-1) .nil .nil)
        rw [hnm] at hdeep
        constructor
        · rintro ⟨p, _, h2, h3⟩
          have h3' := h3.trans hperm
          have : p ∈ (ctx (.cons (-1) .nil .nil)).deep (n' + 1) := (PT.mem_deep _ _ _).mpr ⟨h2, by rw [h3'.length_eq, hql]⟩
          rw [hdeep] at this
          rcases List.mem_append.mp this with h | h
          · exact ⟨p, h, h3'⟩
          · exfalso
            have hp : p = q ++ [-1] := by simpa [PT.deep] using h
            have h1 : (-1 : Int) ∈ q ++ [w] := h3'.subset (by rw [hp]; simp)
            have := (hfit'.range _ h1).1
            omega
        · rintro ⟨p, h1, h2⟩
          have : p ∈ (ctx (.cons (-1) .nil .nil)).deep (n' + 1) := by rw [hdeep]; exact List.mem_append_left _ h1
          obtain ⟨g1, g2⟩ := (PT.mem_deep _ _ _).mp this
          exact ⟨p, by intro hp; rw [hp] at g2; simp at g2, g1, h2.trans hperm.symm⟩
      by_cases c4 : (ctx (.cons (-1) .nil .nil)).containsVec (asg.set v.toNat w) = true
      · rw [if_pos c4]
        refine ⟨none, rfl, trivial, ?_, ?_, ?_⟩
        · intro p hp; simp [tree, PT.deep] at hp
        · intro h; simpa [tree, PT.deep] using h
        · intro p hp hpre
          rw [prefix_eq hpre (by rw [hp.1, hql])]
          obtain ⟨p', h1, h2⟩ := hdup.mp c4
          exact ⟨p', List.mem_append_left _ h1, h2⟩
      · rw [if_neg c4, hnm]
        have hnew : ((tree w (some .nil)).deep 1).map (q ++ ·) = [q ++ [w]] := by simp [tree, PT.deep]
        refine ⟨some .nil, rfl, ⟨rfl, trivial⟩, ?_⟩
        rw [hnew]
        refine ⟨?_, ?_, ?_⟩
        · intro p hp
          rw [List.mem_singleton] at hp
          subst hp
          exact ⟨hql, hfit'⟩
        · intro hd
          rw [List.pairwise_append]
          refine ⟨hd, List.pairwise_singleton _ _, ?_⟩
          intro a haa b hbb hab
          rw [List.mem_singleton] at hbb
          subst hbb
          exact c4 (hdup.mpr ⟨a, haa, hab⟩)
        · intro p hp hpre
          rw [prefix_eq hpre (by rw [hp.1, hql])]
          exact ⟨_, List.mem_append_right _ List.mem_cons_self, List.Perm.refl _⟩
    · -- try the neighbours
      rw [if_neg c3]
      obtain ⟨e, he⟩ : ∃ e, n = m + 2 + e := ⟨n - (m + 2), by omega⟩
      obtain ⟨⟨x, qi⟩, hx⟩ : ∃ e, tr[m + 1]? = some e := ⟨_, List.getElem?_eq_getElem (by rw [ht.len]; omega)⟩
      obtain ⟨hq0, hq1, y, z, hy, hyx⟩ := ht.parent m x qi hx
      have hyv : (tr.map Prod.fst)[qi.toNat]? = some y := by rw [List.getElem?_map, hy]; rfl
      have hy0 := (hmem y).mp (List.mem_of_getElem? hyv)
      obtain ⟨np, hnp⟩ : ∃ np, (q ++ [w])[qi.toNat]? = some np := ⟨_, List.getElem?_eq_getElem (by simp; omega)⟩
      have hatnp : at_ (asg.set v.toNat w) y = .ok np := at_ok hy0.1 (by rw [ha'.val _ _ hyv, hnp]; rfl)
      have hnm : n - m = e + 2 := by omega
      rw [hnm] at hctx ⊢
      have hnb : ∀ u ∈ ((sets (N : Int) lg).neighbors np).1, 0 ≤ u ∧ u < N := by
        intro u hu
        obtain ⟨e', he', rfl⟩ := List.mem_map.mp hu
        exact (row_keys hg np e' he').2
      obtain ⟨E, h1, h2, h3⟩ := subLoop_ok hmem he hvl (ih (m + 1) (by omega) (by omega)) hq ha' hfit' hctx
        ((sets (N : Int) lg).neighbors np).1 .nil hnb
      have h3' : Post n N lh lg (tr.map Prod.fst) done ((E.deep (e + 1)).map (q ++ [w] ++ ·)) (fun p => q ++ [w] <+: p) := by
        have hd0 : done ++ ((PT.nil : PT Int).deep (e + 1)).map (q ++ [w] ++ ·) = done := by simp [PT.deep]
        rw [hd0] at h3
        refine ⟨h3.full, h3.dist, ?_⟩
        intro p hp hpre
        refine h3.all p hp ?_
        obtain ⟨s, rfl⟩ := hpre
        have hpl := hp.1
        cases s with
        | nil => simp at hpl; omega
        | cons u s =>
          have hux : (tr.map Prod.fst)[m + 1]? = some x := by rw [List.getElem?_map, hx]; rfl
          have hqw : (q ++ [w]).length = m + 1 := by simp [hq]
          refine ⟨u, ?_, ?_, ⟨s, by simp⟩⟩
          · have hwt : wt lh y x = wt lg np u := by
              refine hp.2.wts qi.toNat (m + 1) y x np u (by omega) hyv hux ?_ ?_
              · rw [List.getElem?_append_left (by omega)]; exact hnp
              · rw [List.getElem?_append_right (by omega), hqw]; simp
            rw [hwt] at hyx
            cases el : lastU lg np u with
            | none => exact absurd (by unfold wt; rw [el]; rfl) hyx
            | some xx => exact List.mem_map.mpr ⟨(u, xx), row_mem el, rfl⟩
          · intro hmu
            have := hp.2.nodup
            rw [List.nodup_append] at this
            exact this.2.2 u hmu u List.mem_cons_self rfl
      unfold descend
      rw [at_ok (v := tr) (i := (m : Int) + 1) (by omega) (by rw [show ((m : Int) + 1).toNat = m + 1 from by omega]; exact hx), Res.ok_bind]
      dsimp only
      rw [at_ok (v := tr) hq0 hy, Res.ok_bind]
      dsimp only
      rw [show (PT.nil : PT Int).app E = E from rfl] at h1
      rw [hatnp, Res.ok_bind, h1, Res.ok_bind]
      dsimp only
      rw [hback]
      by_cases c5 : E = .nil
      · rw [if_pos c5]
        subst c5
        exact ⟨none, rfl, trivial, h3'⟩
      · rw [if_neg c5]
        refine ⟨some E, rfl, ⟨c5, h2, trivial⟩, ?_⟩
        have : ((tree w (some E)).deep (e + 2)).map (q ++ ·) = (E.deep (e + 1)).map (q ++ [w] ++ ·) := by
          simp [tree, PT.deep, List.map_map, Function.comp_def]
        rw [this]
        exact h3'

theorem rootLoop_ok {n N : Nat} (hn : 0 < n) {lh lg : List (Int × Int × α)} (hh : InRange n lh) (hg : InRange N lg) {tr : List (Int × Int)}
    (ht : Trav n lh tr) : ∀ (k i : Nat) (F : PT Int), i + k = N →
    ∃ E, rootLoop (sets N lg) (sets n lh) tr k i F (List.replicate n (-1)) = .ok (F.app E) ∧ E.Level n ∧
      Post n N lh lg (tr.map Prod.fst) (F.deep n) (E.deep n) (fun p => ∃ u : Int, i ≤ u ∧ u < N ∧ [u] <+: p) := by
  intro k
  obtain ⟨n', rfl⟩ : ∃ n', n = n' + 1 := ⟨n - 1, by omega⟩
  induction k with
  | zero =>
    intro i F hi
    refine ⟨.nil, by rw [PT.app_nil]; rfl, trivial, ?_, ?_, ?_⟩
    · intro p hp; simp [PT.deep] at hp
    · intro h; simpa [PT.deep] using h
    · rintro p _ ⟨u, h1, h2, _⟩; omega
  | succ k ih =>
    intro i F hi
    have hasg : Asg (n' + 1) (tr.map Prod.fst) [] (List.replicate (n' + 1) (-1)) := by
      refine ⟨by simp, ?_⟩
      intro k x hx
      have := (ht.mem x).mp (List.mem_of_getElem? hx)
      rw [List.getElem?_replicate, if_pos (by omega)]; rfl
    obtain ⟨r, h1, h2, h3⟩ := makeSubtree_ok hh hg ht (tr.length + 1) 0 (by omega) (by rw [ht.len]; omega) (fun t => F.app t) i
      (List.replicate (n' + 1) (-1)) [] (F.deep (n' + 1)) rfl hasg ⟨by simp, by simp, by intro i k x y a b _ _ _ h; simp at h⟩ (by simp) ⟨by omega, by omega⟩
      (by intro T; rw [PT.deep_app, Nat.sub_zero]; simp)
    rw [Nat.sub_zero] at h2 h3
    have hid : (tree i r).deep (n' + 1) = ((tree i r).deep (n' + 1)).map (([] : List Int) ++ ·) := by simp
    rw [← hid] at h3
    obtain ⟨E, g1, g2, g3⟩ := ih (i + 1) (F.app (tree i r)) (by omega)
    refine ⟨(tree i r).app E, ?_, h2.app g2, ?_⟩
    · rw [rootLoop, h1, Res.ok_bind, ← PT.app_app, ← g1]
      cases r with
      | none => dsimp only [tree]; rw [PT.app_nil]; rfl
      | some c => rfl
    · rw [PT.deep_app]
      rw [PT.deep_app] at g3
      refine h3.trans g3 ?_
      rintro p ⟨u, h1, h2, h3⟩
      by_cases c : u = i
      · subst c; exact Or.inl h3
      · exact Or.inr ⟨u, by push_cast; omega, h2, h3⟩

/-! ## The traversal -/

omit [DecidableEq α] in
/-- Specification: every vertex can be reached from vertex 0 along edges of non-zero weight. -/
def Connected (n : Nat) (lh : List (Int × Int × α)) : Prop := ∀ v : Int, 0 ≤ v → v < n → Relation.ReflTransGen (Edge lh) 0 v

theorem links_eq : ∀ (t : PT Int) (p : Int), LTree.links p t = SGraph.links p t := by
  intro t
  induction t with
  | nil => intro p; rfl
  | cons x c r ihc ihr => intro p; rw [LTree.links, SGraph.links, ihc, ihr]

theorem links_snd : ∀ (t : PT Int) (p : Int), (SGraph.links p t).map Prod.snd = t.depthFirst := by
  intro t
  induction t with
  | nil => intro p; rfl
  | cons x c r ihc ihr => intro p; rw [SGraph.links, PT.depthFirst, List.map_cons, List.map_append, ihc, ihr]

theorem length_of_mem {n : Nat} {vs : List Int} (hnd : vs.Nodup) (hmem : ∀ v, v ∈ vs ↔ 0 ≤ v ∧ v < n) :
    vs.Perm ((List.range n).map fun (i : Nat) => (i : Int)) := by
  rw [List.perm_ext_iff_of_nodup hnd (List.Nodup.map (fun a b h => Int.natCast_inj.mp h) List.nodup_range)]
  intro v
  rw [hmem, List.mem_map]
  constructor
  · rintro ⟨h1, h2⟩; exact ⟨v.toNat, by rw [List.mem_range]; omega, by omega⟩
  · rintro ⟨a, h1, rfl⟩; rw [List.mem_range] at h1; omega

theorem trav_ok {n : Nat} {lh : List (Int × Int × α)} (hn : 0 < n) (hh : InRange n lh) (hc : Connected n lh) :
    ∃ S, greedyTree (sets n lh) 0 = .ok S ∧ Trav n lh (LTree.depthIx ⟨0, S⟩) := by
  obtain ⟨S, h1, h2, h3, h4⟩ := C72_tree hh (root := 0) (by omega) (by omega)
  have hfst : (LTree.depthIx ⟨0, S⟩).map Prod.fst = 0 :: (SGraph.links 0 S).map Prod.snd := by
    rw [LTree.C126_labels, links_snd]; rfl
  have hmem : ∀ v, v ∈ (LTree.depthIx ⟨0, S⟩).map Prod.fst ↔ 0 ≤ v ∧ v < n := by
    intro v
    rw [hfst, h3]
    constructor
    · intro h
      induction h with
      | refl => omega
      | tail _ hab _ =>
        obtain ⟨x, hx, _⟩ := hab
        exact (hh.lt (by rw [hx]; rfl)).2.2
    · rintro ⟨g1, g2⟩; exact hc v g1 g2
  have hnd : ((LTree.depthIx ⟨0, S⟩).map Prod.fst).Nodup := by rw [hfst]; exact h2
  refine ⟨S, h1, ?_, hnd, hmem, ?_⟩
  · have := (length_of_mem hnd hmem).length_eq
    simpa using this
  · intro k x q h
    obtain ⟨g1, g2, y, z, g3, g4⟩ := (LTree.C126_parents (⟨0, S⟩ : LTree Int)).2 k x q h
    refine ⟨g1, g2, y, z, g3, ?_⟩
    dsimp only at g4
    rw [links_eq] at g4
    obtain ⟨w, hw, hw0⟩ := h4 _ (List.mem_of_getElem? g4)
    dsimp only at hw
    unfold wt
    rw [hw]; exact hw0

/-! ## The result -/

omit [DecidableEq α] in
/-- Specification: `f` maps the vertices of `H` to different vertices of `G` so that any two different vertices and their images
are joined with the same weight (or both not joined). -/
structure Emb (n N : Nat) (lh lg : List (Int × Int × α)) (f : Int → Int) : Prop where
  range : ∀ i : Int, 0 ≤ i → i < n → 0 ≤ f i ∧ f i < N
  inj : ∀ i j : Int, 0 ≤ i → i < n → 0 ≤ j → j < n → f i = f j → i = j
  wts : ∀ i j : Int, 0 ≤ i → i < n → 0 ≤ j → j < n → i ≠ j → wt lh i j = wt lg (f i) (f j)

omit [DecidableEq α] in
theorem full_iff {n N : Nat} {lh lg : List (Int × Int × α)} {vs : List Int} (hnd : vs.Nodup) (hmem : ∀ v, v ∈ vs ↔ 0 ≤ v ∧ v < n)
    (p : List Int) : Full n N lh lg vs p ↔ ∃ f, Emb n N lh lg f ∧ p = vs.map f := by
  have hlen : vs.length = n := by simpa using (length_of_mem hnd hmem).length_eq
  constructor
  · rintro ⟨hl, hf⟩
    have hidx : ∀ i, 0 ≤ i → i < (n : Int) → ∃ k : Nat, ∃ a, vs[k]? = some i ∧ vs.idxOf i = k ∧ p[k]? = some a := by
      intro i h0 h1
      have hm := (hmem i).mpr ⟨h0, h1⟩
      have hk := List.idxOf_lt_length_iff.mpr hm
      exact ⟨vs.idxOf i, p[vs.idxOf i]'(by omega), by rw [List.getElem?_eq_getElem hk, List.getElem_idxOf], rfl, List.getElem?_eq_getElem _⟩
    refine ⟨fun v => (p[vs.idxOf v]?).getD 0, ⟨?_, ?_, ?_⟩, ?_⟩
    · intro i h0 h1
      obtain ⟨k, a, _, hk, ha⟩ := hidx i h0 h1
      rw [hk, ha]
      exact hf.range a (List.mem_of_getElem? ha)
    · intro i j h0 h1 g0 g1 he
      obtain ⟨k, a, e1, hk, ha⟩ := hidx i h0 h1
      obtain ⟨k', a', e1', hk', ha'⟩ := hidx j g0 g1
      rw [hk, ha, hk', ha'] at he
      have he : a = a' := he
      subst he
      obtain ⟨h1, e2⟩ := List.getElem?_eq_some_iff.mp ha
      obtain ⟨h2, e3⟩ := List.getElem?_eq_some_iff.mp ha'
      have hkk := (List.Nodup.getElem_inj_iff hf.nodup).mp (e2.trans e3.symm)
      rw [hkk, e1'] at e1
      injection e1 with e1
      exact e1.symm
    · intro i j h0 h1 g0 g1 hne
      obtain ⟨k, a, e1, hk, ha⟩ := hidx i h0 h1
      obtain ⟨k', a', e1', hk', ha'⟩ := hidx j g0 g1
      rw [hk, ha, hk', ha', Option.getD_some, Option.getD_some]
      rcases Nat.lt_trichotomy k k' with c | c | c
      · exact hf.wts k k' i j a a' c e1 e1' ha ha'
      · subst c
        rw [e1] at e1'
        injection e1' with e1'
        exact absurd e1' hne
      · rw [wt_comm lh, wt_comm lg]
        exact hf.wts k' k j i a' a c e1' e1 ha' ha
    · apply List.ext_getElem (by rw [List.length_map, hl, hlen])
      intro k h1 h2
      rw [List.length_map] at h2
      rw [List.getElem_map, List.Nodup.idxOf_getElem hnd, List.getElem?_eq_getElem h1]; rfl
  · rintro ⟨f, hf, rfl⟩
    have hin : ∀ v ∈ vs, 0 ≤ v ∧ v < (n : Int) := fun v hv => (hmem v).mp hv
    refine ⟨by rw [List.length_map, hlen], ?_, ?_, ?_⟩
    · exact List.Nodup.map_on (fun a ha b hb h => hf.inj a b (hin a ha).1 (hin a ha).2 (hin b hb).1 (hin b hb).2 h) hnd
    · intro w hw
      obtain ⟨v, hv, rfl⟩ := List.mem_map.mp hw
      exact hf.range v (hin v hv).1 (hin v hv).2
    · intro i k x y a b hik hx hy ha hb
      rw [List.getElem?_map, hx] at ha
      rw [List.getElem?_map, hy] at hb
      have ha : f x = a := by simpa using ha
      have hb : f y = b := by simpa using hb
      have h1 := hin x (List.mem_of_getElem? hx)
      have h2 := hin y (List.mem_of_getElem? hy)
      rw [← ha, ← hb]
      refine hf.wts x y h1.1 h1.2 h2.1 h2.2 ?_
      rintro rfl
      obtain ⟨g1, e1⟩ := List.getElem?_eq_some_iff.mp hx
      obtain ⟨g2, e2⟩ := List.getElem?_eq_some_iff.mp hy
      have := (List.Nodup.getElem_inj_iff hnd).mp (e1.trans e2.symm)
      omega

/-- **Search for copies**: for connected `H` with at least one vertex there is an order `vs` of its vertices, starting with vertex 0 and
depending on `H` only, such that for every `G` the search ends; every row found is the image of `vs` under an embedding; no two rows have
the same vertices; and the vertices of every embedding are those of some row. -/
theorem C128_find {n : Nat} {lh : List (Int × Int × α)} (hn : 0 < n) (hh : InRange n lh) (hc : Connected n lh) :
    ∃ vs : List Int, vs.Perm ((List.range n).map fun (i : Nat) => (i : Int)) ∧ vs.head? = some 0 ∧
      ∀ (N : Nat) (lg : List (Int × Int × α)), InRange N lg → ∃ F R, find (sets N lg) (sets n lh) = .ok F ∧ rows (sets n lh) F = .ok R ∧
        nmatches F = R.length ∧ (∀ p ∈ R, ∃ f, Emb n N lh lg f ∧ p = vs.map f) ∧ R.Pairwise (fun a b => ¬ a.Perm b) ∧
        ∀ f, Emb n N lh lg f → ∃ p ∈ R, p.Perm (vs.map f) := by
  obtain ⟨S, hS, ht⟩ := trav_ok hn hh hc
  refine ⟨(LTree.depthIx ⟨0, S⟩).map Prod.fst, length_of_mem ht.nodup ht.mem, rfl, ?_⟩
  intro N lg hg
  obtain ⟨E, h1, h2, h3⟩ := rootLoop_ok hn hh hg ht N 0 .nil (by omega)
  have hk : E.kids [] = E.deep n := by
    obtain ⟨n', rfl⟩ : ∃ n', n = n' + 1 := ⟨n - 1, by omega⟩
    rw [PT.kids_level E n' [] h2]; simp
  have hfull := h3.full
  refine ⟨E, E.deep n, ?_, ?_, ?_, ?_, ?_, ?_⟩
  · unfold find
    rw [hS, Res.ok_bind, sets_n, sets_n, Int.toNat_natCast, Int.toNat_natCast]
    exact h1
  · unfold rows
    rw [hk, sets_n, Int.toNat_natCast]
    have : ∀ (L R : List (List Int)), (∀ p ∈ L, p.length = n) →
        Res.forM L R (fun R x => if (x.length : Int) < n then .ub else .ok (R ++ [x.take n])) = .ok (R ++ L) := by
      intro L
      induction L with
      | nil => intro R _; rw [Res.forM_nil, List.append_nil]
      | cons p L ih =>
        intro R hL
        have hp := hL p List.mem_cons_self
        rw [Res.forM_cons, if_neg (by omega), Res.ok_bind, ih _ (fun p hp => hL p (List.mem_cons_of_mem _ hp)),
          List.take_of_length_le (by omega)]
        simp
    exact this _ [] (fun p hp => (hfull p hp).1)
  · unfold nmatches; rw [hk]
  · intro p hp
    exact (full_iff ht.nodup ht.mem p).mp (hfull p hp)
  · exact h3.dist List.Pairwise.nil
  · intro f hf
    have hF := (full_iff ht.nodup ht.mem _).mpr ⟨f, hf, rfl⟩
    refine h3.all _ hF ?_
    have h0 := hf.range 0 (by omega) (by omega)
    exact ⟨f 0, by omega, h0.2, ⟨_, rfl⟩⟩

/-- A triangle with a tail. -/
def exG : List (Int × Int × Int) := [(0, 1, 1), (1, 2, 1), (0, 2, 1), (2, 3, 1)]
/-- A path of three vertices, the middle one is 2. -/
def exH : List (Int × Int × Int) := [(0, 2, 1), (2, 1, 1)]

example : InRange 3 exH ∧ Connected 3 exH := by
  refine ⟨(InRange_iff _ _).mpr (by decide), fun v h0 h1 => ?_⟩
  have e1 : Edge exH 0 2 := ⟨1, by decide, by decide⟩
  have e2 : Edge exH 2 1 := ⟨1, by decide, by decide⟩
  have : v = 0 ∨ v = 1 ∨ v = 2 := by omega
  rcases this with rfl | rfl | rfl
  · exact Relation.ReflTransGen.refl
  · exact (Relation.ReflTransGen.single e1).tail e2
  · exact Relation.ReflTransGen.single e1

/-- The columns are in the order of the traversal, here vertices 0, 2, 1; the triangle has no induced path. -/
example : (find (sets 4 exG) (sets 3 exH) >>= rows (sets 3 exH)) = .ok [[0, 2, 3], [1, 2, 3]] := by decide

/-! ## Where the search is not defined or not exact -/

/-- **Not connected**: when `H` is not connected and the part of vertex 0 occurs in `G`, the search reads past the traversal.  Without
vertices the spanning tree is undefined. -/
theorem C129_disconnected_fails : find (sets 2 [(0, 1, (1 : Int))]) (sets 2 []) = .ub ∧
    find (sets 2 [(0, 1, (1 : Int))]) (sets 0 []) = .ub := by decide

/-- **Loops are not compared**: a vertex with a loop is found in a graph without loops. -/
theorem C129_loop_fails : (find (sets 2 [(0, 1, (1 : Int))]) (sets 1 [(0, 0, 5)]) >>= rows (sets 1 [(0, 0, (5 : Int))])) =
    .ok [[0], [1]] := by decide

/-- **Order of the columns**: column `i` of the result is not the image of vertex `i`: vertices 0 and 1 of `H` are not
joined, but the vertices in columns 0 and 1 of the only row are. -/
theorem C129_column_fails : (find (sets 3 [(0, 1, (1 : Int)), (1, 2, 2)]) (sets 3 [(0, 2, (1 : Int)), (2, 1, 2)]) >>= rows (sets 3 [(0, 2, (1 : Int)), (2, 1, 2)])) =
    .ok [[0, 1, 2]] ∧ wt [(0, 2, (1 : Int)), (2, 1, 2)] 0 1 = 0 ∧ wt [(0, 1, (1 : Int)), (1, 2, 2)] 0 1 = 1 := by decide

end Planted

end Cnine
