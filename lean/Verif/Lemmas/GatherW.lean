import Verif.Lemmas.Gather

/-!
# Weighted gather maps
-/

namespace Cnine

open HeadSpec GatherSpec

namespace WMap

/-- Pairs laid out one after the other. -/
def flat (l : List (Int × Int)) : List Int := l.flatMap fun e => [e.1, e.2]

theorem flat_length (l : List (Int × Int)) : (flat l).length = 2 * l.length := by
  induction l with
  | nil => rfl
  | cons a l ih => simp only [flat, List.flatMap_cons, List.length_append] at ih ⊢; rw [ih]; simp; omega

theorem flat_append (l m : List (Int × Int)) : flat (l ++ m) = flat l ++ flat m := by simp [flat]

theorem flat_src {l : List (Int × Int)} {j : Nat} {e : Int × Int} (h : l[j]? = some e) :
    (flat l)[2 * j]? = some e.1 := by
  induction l generalizing j with
  | nil => simp at h
  | cons a l ih =>
    cases j with
    | zero => simp at h; subst h; simp [flat]
    | succ j =>
      rw [List.getElem?_cons_succ] at h
      have := ih h
      simp only [flat, List.flatMap_cons] at this ⊢
      rw [List.getElem?_append_right (by simp; omega)]
      rw [← this]
      congr 1

theorem flat_weight {l : List (Int × Int)} {j : Nat} {e : Int × Int} (h : l[j]? = some e) :
    (flat l)[2 * j + 1]? = some e.2 := by
  induction l generalizing j with
  | nil => simp at h
  | cons a l ih =>
    cases j with
    | zero => simp at h; subst h; simp [flat]
    | succ j =>
      rw [List.getElem?_cons_succ] at h
      have := ih h
      simp only [flat, List.flatMap_cons] at this ⊢
      rw [List.getElem?_append_right (by simp; omega)]
      rw [← this]
      congr 1

/-- A weighted map with the given rows: target and (source, weight) pairs. -/
def Holds (g : GMap) (rows : List (Int × List (Int × Int))) : Prop := g.Holds (rows.map fun r => (r.1, flat r.2))

theorem full_row {rows : List (Int × List (Int × Int))} {i : Nat} {r : Int × List (Int × Int)}
    (hi : rows[i]? = some r) : ((rows.map fun r => (r.1, flat r.2)).map fun r => HRow.full r.1 r.2)[i]? =
      some (HRow.full r.1 (flat r.2)) := by
  rw [List.getElem?_map, List.getElem?_map, hi]; rfl

theorem src_ok {g : GMap} {rows : List (Int × List (Int × Int))} (h : Holds g rows) {i : Nat}
    {r : Int × List (Int × Int)} (hi : rows[i]? = some r) {j : Nat} {e : Int × Int} (hj : r.2[j]? = some e) :
    src g i j = .ok e.1 := by
  have := (HL.Holds.reads h).get i _ (2 * j) e.1 (full_row hi) (by
    simp only [HRow.full, List.getElem?_map, flat_src hj]; rfl)
  exact this

theorem weight_ok {g : GMap} {rows : List (Int × List (Int × Int))} (h : Holds g rows) {i : Nat}
    {r : Int × List (Int × Int)} (hi : rows[i]? = some r) {j : Nat} {e : Int × Int} (hj : r.2[j]? = some e) :
    weight g i j = .ok e.2 := by
  have := (HL.Holds.reads h).get i _ (2 * j + 1) e.2 (full_row hi) (by
    simp only [HRow.full, List.getElem?_map, flat_weight hj]; rfl)
  exact this

theorem sizeOf_ok {g : GMap} {rows : List (Int × List (Int × Int))} (h : Holds g rows) {i : Nat}
    {r : Int × List (Int × Int)} (hi : rows[i]? = some r) : sizeOf g i = .ok (r.2.length : Int) := by
  unfold sizeOf
  rw [(HL.Holds.reads h).sizeOf i _ (full_row hi), Res.ok_bind]
  simp only [HRow.full, List.length_map, flat_length]
  rw [Int.tdiv_eq_ediv_of_nonneg (by omega)]
  congr 1
  omega

theorem rowEdges_ok {g : GMap} {rows : List (Int × List (Int × Int))} (h : Holds g rows) {i : Nat}
    {r : Int × List (Int × Int)} (hi : rows[i]? = some r) (t : Int) : ∀ (k j : Nat), j + k = r.2.length →
    rowEdges g i t j k = .ok ((r.2.drop j).map fun e => (t, e)) := by
  intro k
  induction k with
  | zero => intro j hj; rw [List.drop_of_length_le (by omega)]; rfl
  | succ k ih =>
    intro j hj
    have hl : r.2[j]? = some (r.2[j]'(by omega)) := List.getElem?_eq_getElem (by omega)
    have e : rowEdges g i t ((j : Int) + 1) k = .ok ((r.2.drop (j + 1)).map fun s => (t, s)) := ih (j + 1) (by omega)
    unfold rowEdges
    rw [src_ok h hi hl, Res.ok_bind, weight_ok h hi hl, Res.ok_bind, e, Res.ok_bind,
      List.drop_eq_getElem_cons (show j < r.2.length by omega)]
    rfl

theorem edgesFrom_ok {g : GMap} {rows : List (Int × List (Int × Int))} (h : Holds g rows) :
    ∀ (k i : Nat), i + k = rows.length → edgesFrom g i k = .ok (edges (rows.drop i)) := by
  intro k
  induction k with
  | zero => intro i hi; rw [List.drop_of_length_le (by omega)]; rfl
  | succ k ih =>
    intro i hi
    have hl : rows[i]? = some rows[i] := List.getElem?_eq_getElem (by omega)
    have e : edgesFrom g ((i : Int) + 1) k = .ok (edges (rows.drop (i + 1))) := ih (i + 1) (by omega)
    have e2 : rowEdges g i rows[i].1 (0 : Int) rows[i].2.length = .ok (rows[i].2.map fun s => (rows[i].1, s)) :=
      rowEdges_ok h hl rows[i].1 rows[i].2.length 0 (by omega)
    unfold edgesFrom
    rw [sizeOf_ok h hl, Res.ok_bind, (HL.Holds.reads h).head i _ _ (full_row hl) rfl, Res.ok_bind]
    rw [Int.toNat_natCast, e2, Res.ok_bind, e, Res.ok_bind, List.drop_eq_getElem_cons (show i < rows.length by omega)]
    rfl

theorem size_ok {g : GMap} {rows : List (Int × List (Int × Int))} (h : Holds g rows) :
    g.arr.size = rows.length := by simpa using (HL.Holds.reads h).size

theorem forEach_ok {g : GMap} {rows : List (Int × List (Int × Int))} (h : Holds g rows) :
    forEach g = .ok (edges rows) := by
  unfold forEach
  rw [size_ok h, Int.toNat_natCast]
  simpa using edgesFrom_ok h rows.length 0 (by omega)

/-! ## Inverse -/

theorem mapPush_flat (k a b : Int) (m : List (Int × List (Int × Int))) :
    GMap.mapPush k b (GMap.mapPush k a (m.map fun r => (r.1, flat r.2))) =
      (GMap.mapPush k (a, b) m).map fun r => (r.1, flat r.2) := by
  induction m with
  | nil => simp [GMap.mapPush, flat]
  | cons x m ih =>
    obtain ⟨k', vs⟩ := x
    simp only [List.map_cons]
    by_cases h1 : k < k'
    · simp [GMap.mapPush, h1, flat]
    · by_cases h2 : k = k'
      · subst h2; simp [GMap.mapPush, flat]
      · simp [GMap.mapPush, h1, h2, ih]

theorem invMap_flat (es : List (Int × Int × Int)) : ∀ (m : List (Int × List (Int × Int))),
    es.foldl (fun m e => GMap.mapPush e.2.1 e.2.2 (GMap.mapPush e.2.1 e.1 m)) (m.map fun r => (r.1, flat r.2)) =
      (es.foldl (fun m e => GMap.mapPush e.2.1 (e.1, e.2.2) m) m).map fun r => (r.1, flat r.2) := by
  induction es with
  | nil => intro m; rfl
  | cons e es ih => intro m; rw [List.foldl_cons, List.foldl_cons, mapPush_flat, ih]

theorem makeInv_ok {g : GMap} {rows : List (Int × List (Int × Int))} (h : Holds g rows) :
    ∃ g', makeInv g = .ok g' ∧ g'.nOut = g.nIn ∧ g'.nIn = g.nOut ∧ g'.inCols = 1 ∧ g'.outCols = 1 ∧
      Holds g' ((edges rows).foldl (fun m e => GMap.mapPush e.2.1 (e.1, e.2.2) m) []) := by
  have e0 : invMap (edges rows) = _ := invMap_flat (edges rows) []
  obtain ⟨p, p', e1, e2, e3⟩ := GMap.rows_of_reserve (invMap (edges rows))
    (g.arr.size + 2 * (edges rows).length)
  refine ⟨{ arr := p', nOut := g.nIn, nIn := g.nOut }, ?_, rfl, rfl, rfl, rfl, ?_⟩
  · unfold makeInv
    rw [forEach_ok h, Res.ok_bind]
    dsimp only
    rw [e1, Res.ok_bind, e2]
    rfl
  · unfold Holds GMap.Holds
    rw [← e0]
    exact e3

/-! ## Sorting -/

/-- The rows with the sources only. -/
def bare (rows : List (Int × List (Int × Int))) : List (Int × List Int) := rows.map fun r => (r.1, r.2.map (·.1))

theorem bare_len (rows : List (Int × List (Int × Int))) (q : Nat) :
    ((bare rows).getD q (0, [])).2.length = (rows.getD q (0, [])).2.length := by
  unfold bare List.getD
  rw [List.getElem?_map]
  cases rows[q]? <;> simp

theorem lengthsFrom_ok {g : GMap} {rows : List (Int × List (Int × Int))} (h : Holds g rows) :
    ∀ (k i : Nat) (m : List (Int × List Int)), i + k = rows.length →
    lengthsFrom g i k m = .ok ((List.range' i k).foldl (fun m q => GMap.mapPush
      (if true then -(((bare rows).getD q (0, [])).2.length : Int) else
        (((bare rows).getD q (0, [])).2.length : Int)) q m) m) := by
  intro k
  induction k with
  | zero => intro i m hi; rfl
  | succ k ih =>
    intro i m hi
    have hl : rows[i]? = some rows[i] := List.getElem?_eq_getElem (by omega)
    have e3 : (rows[i].2.length : Int) = (((bare rows).getD i (0, [])).2.length : Int) := by
      rw [bare_len]; simp [List.getD, hl]
    unfold lengthsFrom
    rw [sizeOf_ok h hl, Res.ok_bind, e3]
    have := ih (i + 1) (GMap.mapPush (-(((bare rows).getD i (0, [])).2.length : Int)) i m) (by omega)
    rw [List.range'_succ, List.foldl_cons]
    exact this

/-- Weights converted. -/
def conv (tr : Int → Int) (l : List (Int × Int)) : List (Int × Int) := l.map fun e => (e.1, tr e.2)

theorem set_at {xs : List Int} {n : Nat} {v : Int} {R : List (HRow Int)} {p : Pool Int} {t : Int} {m : Nat}
    (hp : HL.Holds p (R ++ [⟨some t, m, xs.map some ++ List.replicate (n + 1) none⟩])) :
    ∃ p', HL.set p (R.length : Nat) (xs.length : Nat) v = .ok p' ∧
      HL.Holds p' (R ++ [⟨some t, m, (xs ++ [v]).map some ++ List.replicate n none⟩]) := by
  obtain ⟨p1, e1, e2⟩ := (HL.step_spec (.set R.length xs.length v) hp).1 _ (by
      simp only [HeadSpec.step]
      rw [List.getElem?_append_right (Nat.le_refl _), Nat.sub_self]
      simp only [List.getElem?_cons_zero]
      rw [if_pos (by simp)])
  refine ⟨p1, e1, ?_⟩
  have hl : (xs.map (some : Int → Option Int)).length = xs.length := List.length_map _
  have e3 : (xs.map some ++ List.replicate (n + 1) none).set xs.length (some v) =
        (xs ++ [v]).map some ++ List.replicate n none := by
    rw [List.set_append_right _ _ (by omega), hl, Nat.sub_self, List.replicate_succ, List.set_cons_zero,
      List.map_append, List.append_assoc]
    rfl
  rw [List.set_append_right _ _ (Nat.le_refl _), Nat.sub_self, List.set_cons_zero, e3] at e2
  exact e2

theorem copyCells_ok {g : GMap} {rows : List (Int × List (Int × Int))} (h : Holds g rows) {tr : Int → Int} {q : Nat}
    {r : Int × List (Int × Int)} (hq : rows[q]? = some r) (ht : ∀ e ∈ r.2, truncBits e.2 = .ok (tr e.2))
    (R : List (HRow Int)) :
    ∀ (k a : Nat) {p : Pool Int}, a + k = r.2.length →
    HL.Holds p (R ++ [⟨some r.1, 2 * r.2.length, (flat (conv tr (r.2.take a))).map some ++ List.replicate (2 * k) none⟩]) →
    ∃ p', copyCells g q R.length a k p = .ok p' ∧ HL.Holds p' (R ++ [HRow.full r.1 (flat (conv tr r.2))]) := by
  intro k
  induction k with
  | zero =>
    intro a p ha hp
    refine ⟨p, rfl, ?_⟩
    rw [List.take_of_length_le (by omega), Nat.mul_zero, List.replicate_zero, List.append_nil] at hp
    have : (2 * r.2.length) = (flat (conv tr r.2)).length := by rw [flat_length]; simp [conv]
    rw [this] at hp
    exact hp
  | succ k ih =>
    intro a p ha hp
    have hl : r.2[a]? = some (r.2[a]'(by omega)) := List.getElem?_eq_getElem (by omega)
    have hlen : (flat (conv tr (r.2.take a))).length = 2 * a := by
      rw [flat_length]; simp only [conv, List.length_map, List.length_take]; omega
    obtain ⟨p1, e1, e2⟩ := set_at (v := (r.2[a]'(by omega)).1) (n := 2 * k + 1) hp
    obtain ⟨p2, f1, f2⟩ := set_at (v := tr (r.2[a]'(by omega)).2) e2
    rw [List.append_assoc] at f2
    have e3 : flat (conv tr (r.2.take a)) ++ ([(r.2[a]'(by omega)).1] ++ [tr (r.2[a]'(by omega)).2]) =
        flat (conv tr (r.2.take (a + 1))) := by
      rw [List.take_succ_eq_append_getElem (show a < r.2.length by omega)]
      unfold conv
      rw [List.map_append, flat_append]
      rfl
    rw [e3] at f2
    obtain ⟨p3, g1, g2⟩ := ih (a + 1) (by omega) f2
    refine ⟨p3, ?_, g2⟩
    unfold copyCells
    rw [src_ok h hq hl, Res.ok_bind, weight_ok h hq hl, Res.ok_bind]
    unfold set
    rw [hlen] at e1
    rw [List.length_append, hlen, List.length_singleton] at f1
    have e1' : HL.set p (R.length : Nat) (2 * (a : Int)) (r.2[a]'(by omega)).1 = .ok p1 := e1
    have f1' : HL.set p1 (R.length : Nat) (2 * (a : Int) + 1) (tr (r.2[a]'(by omega)).2) = .ok p2 := f1
    rw [e1', Res.ok_bind, ht _ (List.getElem_mem _), Res.ok_bind, f1', Res.ok_bind]
    exact g1

theorem copyRow_ok {g : GMap} {rows : List (Int × List (Int × Int))} (h : Holds g rows) {tr : Int → Int} {q : Nat}
    {r : Int × List (Int × Int)} (hq : rows[q]? = some r) (ht : ∀ e ∈ r.2, truncBits e.2 = .ok (tr e.2))
    {R : List (HRow Int)} {p : Pool Int} (hp : HL.Holds p R) :
    ∃ p', copyRow g r.2.length q p = .ok p' ∧ HL.Holds p' (R ++ [HRow.full r.1 (flat (conv tr r.2))]) := by
  obtain ⟨p1, e1, e2⟩ := (HL.step_spec (.pushLen (2 * r.2.length)) hp).1 _ rfl
  have e1' : HL.pushLen p (2 * (r.2.length : Int)) = .ok p1 := e1
  have hs : p1.size - 1 = R.length := by
    have := (HL.Holds.reads e2).size
    rw [List.length_append, List.length_singleton] at this
    omega
  have hh := (HL.Holds.reads h).head q _ r.1 (full_row hq) rfl
  obtain ⟨p2, f1, f2⟩ := (HL.step_spec (.setHead R.length r.1) e2).1 _ (by
    simp only [HeadSpec.step]
    rw [List.getElem?_append_right (Nat.le_refl _), Nat.sub_self]
    rfl)
  have f1' : HL.setHead p1 (R.length : Nat) r.1 = .ok p2 := f1
  rw [List.set_append_right _ _ (Nat.le_refl _), Nat.sub_self, List.set_cons_zero] at f2
  obtain ⟨p3, g1, g2⟩ := copyCells_ok h hq ht R r.2.length 0 (by omega) (p := p2) (by simpa [flat, conv] using f2)
  refine ⟨p3, ?_, g2⟩
  unfold copyRow
  rw [e1', Res.ok_bind]
  dsimp only
  rw [hs, hh, Res.ok_bind, f1', Res.ok_bind, Int.toNat_natCast]
  exact g1

/-- The rows with the given numbers. -/
def pick (rows : List (Int × List (Int × Int))) (qs : List Int) : List (Int × List (Int × Int)) :=
  qs.map fun q => rows.getD q.toNat (0, [])

/-- The rows with converted weights. -/
def convRows (tr : Int → Int) (rows : List (Int × List (Int × Int))) : List (Int × List (Int × Int)) :=
  rows.map fun r => (r.1, conv tr r.2)

theorem copyRows_ok {g : GMap} {rows : List (Int × List (Int × Int))} (h : Holds g rows) {tr : Int → Int}
    (ht : ∀ r ∈ rows, ∀ e ∈ r.2, truncBits e.2 = .ok (tr e.2)) (len : Int) :
    ∀ (qs : List Int) {R : List (HRow Int)} {p : Pool Int}, GMap.Group (bare rows) len qs → HL.Holds p R →
    ∃ p', copyRows g len qs p = .ok p' ∧
      HL.Holds p' (R ++ (convRows tr (pick rows qs)).map fun r => HRow.full r.1 (flat r.2)) := by
  intro qs
  induction qs with
  | nil => intro R p _ hp; exact ⟨p, rfl, by simpa [pick, convRows] using hp⟩
  | cons q qs ih =>
    intro R p hg hp
    obtain ⟨k, r, rfl, hk, e0⟩ := hg q (by simp)
    unfold bare at hk
    rw [List.getElem?_map] at hk
    cases hk' : rows[k]? with
    | none => rw [hk'] at hk; cases hk
    | some r' =>
      rw [hk'] at hk
      cases hk
      simp only [List.length_map] at e0
      subst e0
      obtain ⟨p1, e1, e2⟩ := copyRow_ok h hk' (ht r' (List.mem_of_getElem? hk')) hp
      obtain ⟨p2, f1, f2⟩ := ih (fun x hx => hg x (List.mem_cons_of_mem _ hx)) e2
      refine ⟨p2, ?_, ?_⟩
      · unfold copyRows
        rw [e1, Res.ok_bind, f1]
      · simpa [pick, convRows, List.getD, hk'] using f2

theorem copyGroups_ok {g : GMap} {rows : List (Int × List (Int × Int))} (h : Holds g rows) {tr : Int → Int}
    (ht : ∀ r ∈ rows, ∀ e ∈ r.2, truncBits e.2 = .ok (tr e.2)) :
    ∀ (m : List (Int × List Int)) {R : List (HRow Int)} {p : Pool Int},
    (∀ a ∈ m, GMap.Group (bare rows) (-a.1) a.2) → HL.Holds p R →
    ∃ p', copyGroups g m p = .ok p' ∧
      HL.Holds p' (R ++ (convRows tr (pick rows (m.flatMap (·.2)))).map fun r => HRow.full r.1 (flat r.2)) := by
  intro m
  induction m with
  | nil => intro R p _ hp; exact ⟨p, rfl, by simpa [pick, convRows] using hp⟩
  | cons a m ih =>
    obtain ⟨k, qs⟩ := a
    intro R p hg hp
    obtain ⟨p1, e1, e2⟩ := copyRows_ok h ht (-k) qs (hg (k, qs) (by simp)) hp
    obtain ⟨p2, f1, f2⟩ := ih (fun x hx => hg x (List.mem_cons_of_mem _ hx)) e2
    refine ⟨p2, ?_, ?_⟩
    · unfold copyGroups
      rw [e1, Res.ok_bind, f1]
    · simpa [pick, convRows] using f2

theorem pick_perm (rows : List (Int × List (Int × Int))) :
    (pick rows ((GMap.groups true (bare rows)).flatMap (·.2))).Perm rows := by
  have h := (GMap.groups_perm true (bare rows)).map fun q : Int => rows.getD q.toNat (0, [])
  have e : ((List.range (bare rows).length).map fun q : Nat => (q : Int)).map
      (fun q : Int => rows.getD q.toNat (0, [])) = rows := by
    rw [List.map_map]
    apply List.ext_getElem?
    intro k
    rw [List.getElem?_map]
    by_cases h : k < rows.length
    · rw [List.getElem?_range (by simpa [bare] using h)]
      simp [List.getD, h]
    · rw [List.getElem?_eq_none (by simpa [bare] using h), List.getElem?_eq_none (by omega)]
      rfl
  rw [e] at h
  exact h

theorem pick_bare (rows : List (Int × List (Int × Int))) (qs : List Int) :
    GMap.pick (bare rows) qs = bare (pick rows qs) := by
  unfold GMap.pick pick bare
  rw [List.map_map]
  apply List.map_congr_left
  intro q _
  simp only [List.getD, List.getElem?_map, Function.comp]
  cases rows[q.toNat]? <;> rfl

theorem sort_ok {g : GMap} {rows : List (Int × List (Int × Int))} (h : Holds g rows) {tr : Int → Int}
    (ht : ∀ r ∈ rows, ∀ e ∈ r.2, truncBits e.2 = .ok (tr e.2)) (hs : g.sorted = false) :
    ∃ g', sort g = .ok g' ∧ g'.sorted = true ∧ g'.nOut = g.nOut ∧ g'.nIn = g.nIn ∧
      Holds g' (convRows tr (pick rows ((GMap.groups true (bare rows)).flatMap (·.2)))) := by
  have hb : (bare rows).length = rows.length := List.length_map _
  obtain ⟨p, e1, e2⟩ := Pool.reserve_holds (Pool.holds_empty (α := Int)) g.arr.tail
  obtain ⟨p', f1, f2⟩ := copyGroups_ok h ht (GMap.groups true (bare rows)) (R := []) (p := p)
    (by simpa using GMap.groups_group true (bare rows)) e2
  have e3 : lengthsFrom g (0 : Int) rows.length [] = .ok (GMap.groups true (bare rows)) := by
    have := lengthsFrom_ok h rows.length 0 [] (by omega)
    rw [← List.range_eq_range'] at this
    unfold GMap.groups
    rw [hb]
    exact this
  refine ⟨{ g with arr := p', sorted := true }, ?_, rfl, rfl, rfl, ?_⟩
  · unfold sort
    rw [hs, size_ok h, Int.toNat_natCast]
    simp only [Bool.false_eq_true, if_false]
    rw [e3, Res.ok_bind, e1, Res.ok_bind, f1]
    rfl
  · rw [List.nil_append] at f2
    unfold Holds GMap.Holds
    rw [List.map_map]
    exact f2

end WMap
end Cnine
