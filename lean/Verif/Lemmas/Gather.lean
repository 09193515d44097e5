import Verif.Model.Gather
import Verif.Spec.Gather
import Verif.Props.Hlists
import Mathlib.Data.List.Perm.Basic
import Mathlib.Data.List.Nodup

namespace Cnine

open HeadSpec GatherSpec

namespace Pool

variable {α : Type _}

theorem reserve_holds {p : Pool α} {rows : List (PoolSpec.Row α)} (h : p.Holds rows) (m : Int) :
    ∃ p', p.reserve m = .ok p' ∧ p'.Holds rows := by
  obtain ⟨p', e1, e2, e3, e4, e5, e6, e7⟩ := reserve_ok h m
  refine ⟨p', e1, ?_⟩
  have hm := h.mem
  have ht := h.tail
  refine ⟨by rw [e2]; exact h.dir, h.le, by rw [e3]; exact h.tail, by omega, e6, h.fit, ?_, ?_, ?_⟩
  · rw [e2]; exact h.dir0
  · rw [e2]; exact h.dir1
  · intro k r j x hk hj
    rw [e7 _ ?_]
    · exact h.cells k r j x hk hj
    · have := h.bound hk (j := j) (by
        have := (List.getElem?_eq_some_iff.mp hj).1
        have := h.fit' hk
        omega)
      omega

end Pool

namespace GMap

/-- The map represents the rows. -/
def Holds (g : GMap) (rows : List (Int × List Int)) : Prop :=
  HL.Holds g.arr (rows.map fun r => HRow.full r.1 r.2)


theorem pushRows_ok (l : List (Int × List Int)) : ∀ {p : Pool Int} {rows : List (HRow Int)}, HL.Holds p rows →
    ∃ p', pushRows l p = .ok p' ∧ HL.Holds p' (rows ++ l.map fun r => HRow.full r.1 r.2) := by
  induction l with
  | nil => intro p rows h; exact ⟨p, rfl, by simpa using h⟩
  | cons r l ih =>
    intro p rows h
    obtain ⟨p1, e1, e2⟩ := (HL.step_spec (.pushVec r.1 r.2) h).1 _ rfl
    obtain ⟨p2, f1, f2⟩ := ih e2
    refine ⟨p2, ?_, by simpa using f2⟩
    unfold pushRows
    have e1' : HL.pushVec p r.1 r.2 = .ok p1 := e1
    rw [e1', Res.ok_bind, f1]

theorem rows_of_reserve (l : List (Int × List Int)) (m : Int) :
    ∃ p p', Pool.empty.reserve m = .ok p ∧ pushRows l p = .ok p' ∧
      HL.Holds p' (l.map fun r => HRow.full r.1 r.2) := by
  obtain ⟨p, e1, e2⟩ := Pool.reserve_holds (Pool.holds_empty (α := Int)) m
  obtain ⟨p', f1, f2⟩ := pushRows_ok l (p := p) (rows := []) e2
  exact ⟨p, p', e1, f1, by simpa using f2⟩

theorem rowEdges_ok {g : GMap} {rows : List (Int × List Int)} (h : g.Holds rows) {i : Nat}
    {r : Int × List Int} (hi : rows[i]? = some r) (t : Int) : ∀ (k j : Nat), j + k = r.2.length →
    rowEdges g i t j k = .ok ((r.2.drop j).map fun s => (t, s)) := by
  intro k
  induction k with
  | zero => intro j hj; rw [List.drop_of_length_le (by omega)]; rfl
  | succ k ih =>
    intro j hj
    have hr := (HL.Holds.reads h).get i (HRow.full r.1 r.2) j (r.2[j]'(by omega))
      (by rw [List.getElem?_map, hi]; rfl) (by
        simp only [HRow.full, List.getElem?_map]
        rw [List.getElem?_eq_getElem (by omega)]; rfl)
    have e : rowEdges g i t ((j : Int) + 1) k = .ok ((r.2.drop (j + 1)).map fun s => (t, s)) := ih (j + 1) (by omega)
    unfold rowEdges
    rw [hr, Res.ok_bind, e, Res.ok_bind, List.drop_eq_getElem_cons (show j < r.2.length by omega)]
    rfl

theorem edgesFrom_ok {g : GMap} {rows : List (Int × List Int)} (h : g.Holds rows) :
    ∀ (k i : Nat), i + k = rows.length → edgesFrom g i k = .ok (edges (rows.drop i)) := by
  intro k
  induction k with
  | zero => intro i hi; rw [List.drop_of_length_le (by omega)]; rfl
  | succ k ih =>
    intro i hi
    have hl : rows[i]? = some rows[i] := List.getElem?_eq_getElem (by omega)
    have hm : (rows.map fun r => HRow.full r.1 r.2)[i]? = some (HRow.full rows[i].1 rows[i].2) := by
      rw [List.getElem?_map, hl]; rfl
    have hr := HL.Holds.reads h
    have e : edgesFrom g ((i : Int) + 1) k = .ok (edges (rows.drop (i + 1))) := ih (i + 1) (by omega)
    have e2 : rowEdges g i rows[i].1 (0 : Int) rows[i].2.length = .ok (rows[i].2.map fun s => (rows[i].1, s)) :=
      rowEdges_ok h hl rows[i].1 rows[i].2.length 0 (by omega)
    unfold edgesFrom
    rw [hr.sizeOf i _ hm, Res.ok_bind, hr.head i _ _ hm rfl, Res.ok_bind]
    have e3 : ((HRow.full rows[i].1 rows[i].2).cells.length : Int).toNat = rows[i].2.length := by
      simp [HRow.full]
    rw [e3, e2, Res.ok_bind, e, Res.ok_bind, List.drop_eq_getElem_cons (show i < rows.length by omega)]
    rfl

theorem forEach_ok {g : GMap} {rows : List (Int × List Int)} (h : g.Holds rows) :
    g.forEach = .ok (edges rows) := by
  have hs : g.arr.size = rows.length := by simpa using (HL.Holds.reads h).size
  unfold forEach
  rw [hs, Int.toNat_natCast]
  simpa using edgesFrom_ok h rows.length 0 (by omega)

/-! ## Bounds -/

theorem bumpAll_bound (n : Int) (l : List Int) : Bound n l (bumpAll n l) := by
  unfold bumpAll
  induction l generalizing n with
  | nil => exact ⟨Int.le_refl _, by simp, Or.inl rfl⟩
  | cons x l ih =>
    have h := ih (max n (x + 1))
    rw [List.foldl_cons]
    refine ⟨?_, ?_, ?_⟩
    · have := h.ge; omega
    · intro y hy
      rcases List.mem_cons.mp hy with rfl | hy
      · have := h.ge; omega
      · exact h.bound y hy
    · rcases h.least with e | ⟨y, hy, e⟩
      · rcases Int.le_total n (x + 1) with c | c
        · exact Or.inr ⟨x, by simp, by omega⟩
        · exact Or.inl (by omega)
      · exact Or.inr ⟨y, List.mem_cons_of_mem _ hy, e⟩

/-! ## Filling by edges -/

/-- The rows after the edges `done` have been entered, with room for `all`. -/
def rowsAt (ord : List Int) (all done : List (Int × Int)) : List (HRow Int) :=
  ord.map fun t => ⟨some t, countOf (all.map (·.2)) t, (done.filter fun e => e.2 = t).map fun e => some e.1⟩

theorem rowsAt_get {ord : List Int} (all done : List (Int × Int)) {t : Int} (ht : t ∈ ord) :
    (rowsAt ord all done)[ord.idxOf t]? = some ⟨some t, countOf (all.map (·.2)) t,
      (done.filter fun e => e.2 = t).map fun e => some e.1⟩ := by
  unfold rowsAt
  rw [List.getElem?_map, List.getElem?_idxOf ht]
  rfl

theorem rowsAt_step {ord : List Int} (hn : ord.Nodup) (all done : List (Int × Int)) (e : Int × Int)
    (ht : e.2 ∈ ord) :
    (rowsAt ord all done).set (ord.idxOf e.2) ⟨some e.2, countOf (all.map (·.2)) e.2,
      ((done.filter fun e' => e'.2 = e.2).map fun e => some e.1) ++ [some e.1]⟩ = rowsAt ord all (done ++ [e]) := by
  apply List.ext_getElem?
  intro k
  rw [List.getElem?_set]
  unfold rowsAt
  by_cases c : ord.idxOf e.2 = k
  · subst c
    rw [if_pos rfl, if_pos (by simpa using List.idxOf_lt_length_iff.mpr ht), List.getElem?_map, List.getElem?_idxOf ht]
    simp
  · rw [if_neg c, List.getElem?_map, List.getElem?_map]
    cases hk : ord[k]? with
    | none => rfl
    | some u =>
      have hu : e.2 ≠ u := by
        rintro rfl
        apply c
        obtain ⟨hk1, hk2⟩ := List.getElem?_eq_some_iff.mp hk
        exact (hn.getElem_inj_iff (hi := List.idxOf_lt_length_iff.mpr ht) (hj := hk1)).mp
          (by rw [hk2]; exact List.getElem_idxOf _)
      simp [hu]

theorem count_done {all done rest : List (Int × Int)} {e : Int × Int} (h : all = done ++ e :: rest) :
    (done.filter fun e' => e'.2 = e.2).length < countOf (all.map (·.2)) e.2 := by
  subst h
  unfold countOf
  rw [List.map_append, List.filter_append, List.length_append, List.map_cons, List.filter_cons_of_pos (by simp)]
  have : ((done.map (·.2)).filter (· = e.2)).length = (done.filter fun e' => e'.2 = e.2).length := by
    rw [List.filter_map, List.length_map]; rfl
  rw [this, List.length_cons]
  omega

theorem fillEdges_ok {ord : List Int} (hn : ord.Nodup) (all : List (Int × Int)) (hm : ∀ e ∈ all, e.2 ∈ ord) :
    ∀ (l done : List (Int × Int)) {p : Pool Int}, all = done ++ l → HL.Holds p (rowsAt ord all done) →
    ∃ p', fillEdges ord l p = .ok p' ∧ HL.Holds p' (rowsAt ord all all) := by
  intro l
  induction l with
  | nil =>
    intro done p h hp
    rw [List.append_nil] at h
    subst h
    exact ⟨p, rfl, hp⟩
  | cons e l ih =>
    intro done p h hp
    have he : e.2 ∈ ord := hm e (by rw [h]; simp)
    have hlt := count_done h
    obtain ⟨p1, e1, e2⟩ := (HL.step_spec (.append (ord.idxOf e.2) e.1) hp).1 _ (by
      simp only [HeadSpec.step, rowsAt_get all done he]
      rw [if_pos (by simpa using hlt)])
    rw [rowsAt_step hn all done e he] at e2
    obtain ⟨p2, f1, f2⟩ := ih (done ++ [e]) (by simpa using h) e2
    refine ⟨p2, ?_, f2⟩
    unfold fillEdges
    have e1' : HL.append p (ord.idxOf e.2 : Nat) e.1 = .ok p1 := e1
    rw [e1', Res.ok_bind, f1]

theorem rowsAt_full (ord : List Int) (all : List (Int × Int)) :
    rowsAt ord all all = (ord.map fun t => (t, (all.filter fun e => e.2 = t).map (·.1))).map fun r => HRow.full r.1 r.2 := by
  unfold rowsAt
  rw [List.map_map]
  apply List.map_congr_left
  intro t _
  simp only [Function.comp, HRow.full, List.map_map, List.length_map, HRow.mk.injEq, true_and]
  refine ⟨?_, rfl⟩
  unfold countOf
  rw [List.filter_map, List.length_map]; rfl

theorem rowsAt_init (ord : List Int) (all : List (Int × Int)) :
    (ord.zip (ord.map fun t => countOf (all.map (·.2)) t)).map (HL.initRow false) = rowsAt ord all [] := by
  unfold rowsAt
  rw [List.zip_map_right, List.map_map]
  have : ord.zip ord = ord.map fun t => (t, t) := by
    induction ord with
    | nil => rfl
    | cons a l ih => simp [ih]
  rw [this, List.map_map]
  rfl

/-- Grouping edges by target loses nothing. -/
theorem edges_group {ord : List Int} (hn : ord.Nodup) (all : List (Int × Int)) (hm : ∀ e ∈ all, e.2 ∈ ord) :
    (edges (ord.map fun t => (t, (all.filter fun e => e.2 = t).map (·.1)))).Perm (reversed all) := by
  unfold edges reversed
  rw [List.flatMap_map]
  have h1 : ∀ t, (((t, (all.filter fun e => e.2 = t).map (·.1)) : Int × List Int).2.map fun s =>
      (((t, (all.filter fun e => e.2 = t).map (·.1)) : Int × List Int).1, s)) =
      (all.filter fun e => e.2 = t).map fun e => (e.2, e.1) := by
    intro t
    dsimp only
    rw [List.map_map]
    apply List.map_congr_left
    intro e he
    have := (List.mem_filter.mp he).2
    simp only [decide_eq_true_eq] at this
    simp [this]
  simp only [h1]
  rw [← List.map_flatMap]
  apply List.Perm.map
  clear h1
  induction ord generalizing all with
  | nil =>
    cases all with
    | nil => simp
    | cons e l => exact absurd (hm e (by simp)) (by simp)
  | cons t ord ih =>
    rw [List.flatMap_cons]
    have hnt := (List.nodup_cons.mp hn)
    have h2 : (ord.flatMap fun u => all.filter fun e => e.2 = u) =
        ord.flatMap fun u => (all.filter fun e => ¬ e.2 = t).filter fun e => e.2 = u := by
      rw [List.flatMap_congr]
      intro u hu
      rw [List.filter_filter]
      apply List.filter_congr
      intro e _
      by_cases c : e.2 = u
      · have : u ≠ t := by rintro rfl; exact hnt.1 hu
        simp [c, this]
      · simp [c]
    rw [h2]
    have h3 := ih hnt.2 (all.filter fun e => ¬ e.2 = t) (by
      intro e he
      have := List.mem_filter.mp he
      rcases List.mem_cons.mp (hm e this.1) with c | c
      · simp [c] at this
      · exact c)
    refine (List.Perm.append_left _ h3).trans ?_
    have := List.filter_append_perm (fun e : Int × Int => decide (e.2 = t)) all
    simpa using this

end GMap

end Cnine

namespace Cnine
namespace GMap
open HeadSpec GatherSpec

/-! ## Ordered maps of vectors -/

/-- Keys in increasing order. -/
def Sorted {β : Type} (m : List (Int × List β)) : Prop := m.Pairwise fun a b => a.1 < b.1

theorem mapPush_edges {β : Type} (k : Int) (v : β) (m : List (Int × List β)) :
    (edges (mapPush k v m)).Perm ((k, v) :: edges m) := by
  induction m with
  | nil => simp [mapPush, edges]
  | cons a m ih =>
    obtain ⟨k', vs⟩ := a
    unfold mapPush
    split
    · simp [edges]
    · split
      · rename_i h; subst h
        simp only [edges, List.flatMap_cons, List.map_append, List.map_cons, List.map_nil,
          List.append_assoc, List.singleton_append]
        exact List.perm_middle
      · have : edges ((k', vs) :: mapPush k v m) = (vs.map fun s => (k', s)) ++ edges (mapPush k v m) := by
          simp [edges]
        rw [this]
        have h2 : edges ((k', vs) :: m) = (vs.map fun s => (k', s)) ++ edges m := by simp [edges]
        rw [h2]
        exact (List.Perm.append_left _ ih).trans List.perm_middle

theorem mapPush_keys {β : Type} (k : Int) (v : β) (m : List (Int × List β)) (a : Int) :
    a ∈ (mapPush k v m).map (·.1) ↔ a = k ∨ a ∈ m.map (·.1) := by
  induction m with
  | nil => simp [mapPush]
  | cons b m ih =>
    obtain ⟨k', vs⟩ := b
    unfold mapPush
    split
    · simp
    · split
      · rename_i h; subst h; simp
      · simp only [List.map_cons, List.mem_cons, ih]
        constructor
        · rintro (h | h | h) <;> simp [h]
        · rintro (h | h | h) <;> simp [h]

theorem mapPush_sorted {β : Type} (k : Int) (v : β) {m : List (Int × List β)} (h : Sorted m) : Sorted (mapPush k v m) := by
  induction m with
  | nil => simp [mapPush, Sorted]
  | cons a m ih =>
    obtain ⟨k', vs⟩ := a
    obtain ⟨h1, h2⟩ := List.pairwise_cons.mp h
    unfold mapPush
    split
    · rename_i hk
      refine List.pairwise_cons.mpr ⟨?_, h⟩
      intro b hb
      rcases List.mem_cons.mp hb with rfl | hb
      · exact hk
      · have := h1 b hb; dsimp only at this ⊢; omega
    · split
      · exact List.pairwise_cons.mpr ⟨h1, h2⟩
      · refine List.pairwise_cons.mpr ⟨?_, ih h2⟩
        intro b hb
        have := (mapPush_keys k v m b.1).mp (List.mem_map_of_mem hb)
        dsimp only
        rcases this with e | e
        · omega
        · obtain ⟨c, hc, e⟩ := List.mem_map.mp e
          have := h1 c hc
          dsimp only at this
          omega

/-- The vector stored under a key, empty when absent. -/
def lookup {β : Type} (m : List (Int × List β)) (k : Int) : List β := (m.filter fun r => r.1 = k).flatMap (·.2)

theorem lookup_absent {β : Type} {m : List (Int × List β)} {k : Int} (h : k ∉ m.map (·.1)) : lookup m k = [] := by
  unfold lookup
  rw [List.filter_eq_nil_iff.mpr, List.flatMap_nil]
  intro r hr hc
  simp only [decide_eq_true_eq] at hc
  exact h (hc ▸ List.mem_map_of_mem hr)

theorem mapPush_lookup {β : Type} (k : Int) (v : β) {m : List (Int × List β)} (h : Sorted m) (a : Int) :
    lookup (mapPush k v m) a = if a = k then lookup m a ++ [v] else lookup m a := by
  induction m with
  | nil =>
    by_cases c : a = k
    · subst c; simp [mapPush, lookup]
    · simp [mapPush, lookup, c, Ne.symm c]
  | cons b m ih =>
    obtain ⟨k', vs⟩ := b
    obtain ⟨h1, h2⟩ := List.pairwise_cons.mp h
    have hcons : ∀ (x : Int × List β) l, lookup (x :: l) a = (if x.1 = a then x.2 else []) ++ lookup l a := by
      intro x l
      by_cases c : x.1 = a <;> simp [lookup, c]
    unfold mapPush
    split
    · rename_i hk
      rw [hcons]
      by_cases c : a = k
      · subst c
        have : lookup ((k', vs) :: m) a = [] := by
          apply lookup_absent
          intro hm
          rcases List.mem_cons.mp hm with e | e
          · dsimp only at e; omega
          · obtain ⟨c, hc, e⟩ := List.mem_map.mp e
            have := h1 c hc; dsimp only at this; omega
        simp [this]
      · rw [if_neg (Ne.symm c), if_neg c, List.nil_append]
    · split
      · rename_i hk; subst hk
        rw [hcons, hcons]
        by_cases c : a = k
        · subst c
          have : lookup m a = [] := by
            apply lookup_absent
            intro hm
            obtain ⟨c, hc, e⟩ := List.mem_map.mp hm
            have := h1 c hc; dsimp only at this; omega
          simp [this]
        · simp [c, Ne.symm c]
      · rw [hcons, hcons, ih h2]
        by_cases c : a = k <;> simp [c]

theorem foldPush_sorted {γ : Type _} {β : Type} (f : γ → Int) (g : γ → β) (l : List γ) : ∀ {m : List (Int × List β)}, Sorted m →
    Sorted (l.foldl (fun m e => mapPush (f e) (g e) m) m) := by
  induction l with
  | nil => intro m h; exact h
  | cons e l ih => intro m h; exact ih (mapPush_sorted _ _ h)

theorem foldPush_edges {γ : Type _} {β : Type} (f : γ → Int) (g : γ → β) (l : List γ) : ∀ (m : List (Int × List β)),
    (edges (l.foldl (fun m e => mapPush (f e) (g e) m) m)).Perm (edges m ++ l.map fun e => (f e, g e)) := by
  induction l with
  | nil => intro m; simp
  | cons e l ih =>
    intro m
    refine (ih _).trans ?_
    rw [List.map_cons]
    refine (List.Perm.append_right _ (mapPush_edges _ _ _)).trans ?_
    exact List.perm_middle.symm

theorem foldPush_lookup {γ : Type _} {β : Type} (f : γ → Int) (g : γ → β) (a : Int) (l : List γ) : ∀ {m : List (Int × List β)}, Sorted m →
    lookup (l.foldl (fun m e => mapPush (f e) (g e) m) m) a = lookup m a ++ (l.filter fun e => f e = a).map g := by
  induction l with
  | nil => intro m h; simp
  | cons e l ih =>
    intro m h
    rw [List.foldl_cons, ih (mapPush_sorted _ _ h), mapPush_lookup _ _ h]
    by_cases c : a = f e
    · simp [c]
    · simp [c, Ne.symm c]

theorem invMap_edges (es : List (Int × Int)) : (edges (invMap es)).Perm (reversed es) := by
  have := foldPush_edges (fun e : Int × Int => e.2) (fun e => e.1) es []
  simpa [edges, invMap, reversed] using this

theorem invMap_sorted (es : List (Int × Int)) : Sorted (invMap es) :=
  foldPush_sorted (fun e : Int × Int => e.2) (fun e => e.1) es List.Pairwise.nil

theorem makeInv_ok {g : GMap} {rows : List (Int × List Int)} (h : g.Holds rows) :
    ∃ g', g.makeInv = .ok g' ∧ g'.Holds (invMap (edges rows)) ∧ g'.nOut = g.nIn ∧ g'.nIn = g.nOut ∧
      g'.inCols = g.outCols ∧ g'.outCols = g.inCols ∧ g'.inColsN = g.outColsN ∧ g'.outColsN = g.inColsN := by
  obtain ⟨p, p', e1, e2, e3⟩ := rows_of_reserve (invMap (edges rows))
    ((invMap (edges rows)).length + (edges rows).length)
  refine ⟨{ arr := p', nOut := g.nIn, nIn := g.nOut, inCols := g.outCols, outCols := g.inCols
            inColsN := g.outColsN, outColsN := g.inColsN }, ?_, e3, rfl, rfl, rfl, rfl, rfl, rfl⟩
  · unfold makeInv
    rw [forEach_ok h, Res.ok_bind]
    dsimp only
    rw [e1, Res.ok_bind, e2]
    rfl

/-! ## Sorting -/

theorem lengthsFrom_ok (neg : Bool) {g : GMap} {rows : List (Int × List Int)} (h : g.Holds rows) :
    ∀ (k i : Nat) (m : List (Int × List Int)), i + k = rows.length →
    lengthsFrom neg g i k m = .ok ((List.range' i k).foldl (fun m q => mapPush
      (if neg then -((rows.getD q (0, [])).2.length : Int) else ((rows.getD q (0, [])).2.length : Int)) q m) m) := by
  intro k
  induction k with
  | zero => intro i m hi; rfl
  | succ k ih =>
    intro i m hi
    have hl : rows[i]? = some rows[i] := List.getElem?_eq_getElem (by omega)
    have hm : (rows.map fun r => HRow.full r.1 r.2)[i]? = some (HRow.full rows[i].1 rows[i].2) := by
      rw [List.getElem?_map, hl]; rfl
    have hs := (HL.Holds.reads h).sizeOf i _ hm
    have e3 : ((HRow.full rows[i].1 rows[i].2).cells.length : Int) = ((rows.getD i (0, [])).2.length : Int) := by
      simp [HRow.full, List.getD, hl]
    unfold lengthsFrom
    rw [hs, Res.ok_bind, e3]
    have := ih (i + 1) (mapPush (if neg then -((rows.getD i (0, [])).2.length : Int) else
      ((rows.getD i (0, [])).2.length : Int)) i m) (by omega)
    rw [List.range'_succ, List.foldl_cons]
    exact this

theorem copyCells_ok {g : GMap} {rows : List (Int × List Int)} (h : g.Holds rows) {q : Nat}
    {r : Int × List Int} (hq : rows[q]? = some r) (R : List (HRow Int)) :
    ∀ (k a : Nat) {p : Pool Int}, a + k = r.2.length →
    HL.Holds p (R ++ [⟨some r.1, r.2.length, (r.2.take a).map some ++ List.replicate k none⟩]) →
    ∃ p', copyCells g q R.length a k p = .ok p' ∧ HL.Holds p' (R ++ [HRow.full r.1 r.2]) := by
  intro k
  induction k with
  | zero =>
    intro a p ha hp
    refine ⟨p, rfl, ?_⟩
    rw [List.take_of_length_le (by omega), List.replicate_zero, List.append_nil] at hp
    exact hp
  | succ k ih =>
    intro a p ha hp
    have hg := (HL.Holds.reads h).get q (HRow.full r.1 r.2) a (r.2[a]'(by omega))
      (by rw [List.getElem?_map, hq]; rfl) (by
        simp only [HRow.full, List.getElem?_map]
        rw [List.getElem?_eq_getElem (by omega)]; rfl)
    obtain ⟨p1, e1, e2⟩ := (HL.step_spec (.set R.length a (r.2[a]'(by omega))) hp).1 _ (by
      simp only [HeadSpec.step]
      rw [List.getElem?_append_right (Nat.le_refl _), Nat.sub_self]
      simp only [List.getElem?_cons_zero]
      rw [if_pos (by simp; omega)])
    have e1' : HL.set p (R.length : Nat) (a : Nat) (r.2[a]'(by omega)) = .ok p1 := e1
    have e3 : ((r.2.take a).map some ++ List.replicate (k + 1) none).set a (some (r.2[a]'(by omega))) =
        (r.2.take (a + 1)).map some ++ List.replicate k none := by
      have hl : ((r.2.take a).map (some : Int → Option Int)).length = a := by
        rw [List.length_map, List.length_take]; omega
      rw [List.set_append_right _ _ (by omega), hl, Nat.sub_self, List.replicate_succ, List.set_cons_zero,
        List.take_succ_eq_append_getElem (show a < r.2.length by omega), List.map_append, List.append_assoc]
      rfl
    rw [List.set_append_right _ _ (Nat.le_refl _), Nat.sub_self, List.set_cons_zero, e3] at e2
    obtain ⟨p2, f1, f2⟩ := ih (a + 1) (by omega) e2
    refine ⟨p2, ?_, f2⟩
    unfold copyCells
    rw [hg, Res.ok_bind, e1', Res.ok_bind]
    exact f1

theorem copyRow_ok {g : GMap} {rows : List (Int × List Int)} (h : g.Holds rows) {q : Nat}
    {r : Int × List Int} (hq : rows[q]? = some r) {R : List (HRow Int)} {p : Pool Int} (hp : HL.Holds p R) :
    ∃ p', copyRow g r.2.length q p = .ok p' ∧ HL.Holds p' (R ++ [HRow.full r.1 r.2]) := by
  obtain ⟨p1, e1, e2⟩ := (HL.step_spec (.pushLen r.2.length) hp).1 _ rfl
  have e1' : HL.pushLen p (r.2.length : Nat) = .ok p1 := e1
  have hs : p1.size - 1 = R.length := by
    have := (HL.Holds.reads e2).size
    rw [List.length_append, List.length_singleton] at this
    omega
  have hh := (HL.Holds.reads h).head q (HRow.full r.1 r.2) r.1 (by rw [List.getElem?_map, hq]; rfl) rfl
  obtain ⟨p2, f1, f2⟩ := (HL.step_spec (.setHead R.length r.1) e2).1 _ (by
    simp only [HeadSpec.step]
    rw [List.getElem?_append_right (Nat.le_refl _), Nat.sub_self]
    rfl)
  have f1' : HL.setHead p1 (R.length : Nat) r.1 = .ok p2 := f1
  rw [List.set_append_right _ _ (Nat.le_refl _), Nat.sub_self, List.set_cons_zero] at f2
  obtain ⟨p3, g1, g2⟩ := copyCells_ok h hq R r.2.length 0 (by omega) (p := p2) (by simpa using f2)
  refine ⟨p3, ?_, g2⟩
  unfold copyRow
  rw [e1', Res.ok_bind]
  dsimp only
  rw [hs, hh, Res.ok_bind, f1', Res.ok_bind, Int.toNat_natCast]
  exact g1

/-- Row numbers, all of rows of length `len`. -/
def Group (rows : List (Int × List Int)) (len : Int) (qs : List Int) : Prop :=
  ∀ q ∈ qs, ∃ (k : Nat) (r : Int × List Int), q = k ∧ rows[k]? = some r ∧ (r.2.length : Int) = len

/-- The rows with the given numbers. -/
def pick (rows : List (Int × List Int)) (qs : List Int) : List (Int × List Int) :=
  qs.map fun q => rows.getD q.toNat (0, [])

theorem copyRows_ok {g : GMap} {rows : List (Int × List Int)} (h : g.Holds rows) (len : Int) :
    ∀ (qs : List Int) {R : List (HRow Int)} {p : Pool Int}, Group rows len qs → HL.Holds p R →
    ∃ p', copyRows g len qs p = .ok p' ∧ HL.Holds p' (R ++ (pick rows qs).map fun r => HRow.full r.1 r.2) := by
  intro qs
  induction qs with
  | nil => intro R p _ hp; exact ⟨p, rfl, by simpa [pick] using hp⟩
  | cons q qs ih =>
    intro R p hg hp
    obtain ⟨k, r, rfl, hk, rfl⟩ := hg q (by simp)
    obtain ⟨p1, e1, e2⟩ := copyRow_ok h hk hp
    obtain ⟨p2, f1, f2⟩ := ih (fun x hx => hg x (List.mem_cons_of_mem _ hx)) e2
    refine ⟨p2, ?_, ?_⟩
    · unfold copyRows
      rw [e1, Res.ok_bind, f1]
    · simpa [pick, List.getD, hk] using f2

theorem copyGroups_ok {g : GMap} {rows : List (Int × List Int)} (h : g.Holds rows) :
    ∀ (m : List (Int × List Int)) {R : List (HRow Int)} {p : Pool Int},
    (∀ a ∈ m, Group rows (-a.1) a.2) → HL.Holds p R →
    ∃ p', copyGroups g m p = .ok p' ∧
      HL.Holds p' (R ++ (pick rows (m.flatMap (·.2))).map fun r => HRow.full r.1 r.2) := by
  intro m
  induction m with
  | nil => intro R p _ hp; exact ⟨p, rfl, by simpa [pick] using hp⟩
  | cons a m ih =>
    obtain ⟨k, qs⟩ := a
    intro R p hg hp
    obtain ⟨p1, e1, e2⟩ := copyRows_ok h (-k) qs (hg (k, qs) (by simp)) hp
    obtain ⟨p2, f1, f2⟩ := ih (fun x hx => hg x (List.mem_cons_of_mem _ hx)) e2
    refine ⟨p2, ?_, ?_⟩
    · unfold copyGroups
      rw [e1, Res.ok_bind, f1]
    · simpa [pick] using f2

/-- The groups by length. -/
def groups (neg : Bool) (rows : List (Int × List Int)) : List (Int × List Int) :=
  (List.range rows.length).foldl (fun m q => mapPush
      (if neg then -((rows.getD q (0, [])).2.length : Int) else ((rows.getD q (0, [])).2.length : Int)) q m) []

theorem mem_edges {m : List (Int × List Int)} {a : Int × List Int} (ha : a ∈ m) {q : Int} (hq : q ∈ a.2) :
    (a.1, q) ∈ edges m := by
  unfold edges
  exact List.mem_flatMap.mpr ⟨a, ha, List.mem_map_of_mem hq⟩

theorem mem_edges' {β : Type} {m : List (Int × List β)} {a : Int × List β} (ha : a ∈ m) {q : β} (hq : q ∈ a.2) :
    (a.1, q) ∈ edges m := by
  unfold edges
  exact List.mem_flatMap.mpr ⟨a, ha, List.mem_map_of_mem hq⟩

theorem groups_group (neg : Bool) (rows : List (Int × List Int)) :
    ∀ a ∈ groups neg rows, Group rows (if neg then -a.1 else a.1) a.2 := by
  intro a ha q hq
  have h1 := (foldPush_edges (fun q : Nat => if neg then -((rows.getD q (0, [])).2.length : Int) else
    ((rows.getD q (0, [])).2.length : Int)) (fun q : Nat => (q : Int)) (List.range rows.length) []).mem_iff.mp
    (mem_edges ha hq)
  simp only [edges, List.flatMap_nil, List.nil_append, List.mem_map, List.mem_range, Prod.mk.injEq] at h1
  obtain ⟨k, hk, e1, e2⟩ := h1
  refine ⟨k, rows[k], e2.symm, List.getElem?_eq_getElem hk, ?_⟩
  rw [← e1]
  cases neg <;> simp [List.getD, hk]

theorem groups_perm (neg : Bool) (rows : List (Int × List Int)) :
    ((groups neg rows).flatMap (·.2)).Perm ((List.range rows.length).map fun q : Nat => (q : Int)) := by
  have h1 := (foldPush_edges (fun q : Nat => if neg then -((rows.getD q (0, [])).2.length : Int) else
    ((rows.getD q (0, [])).2.length : Int)) (fun q : Nat => (q : Int)) (List.range rows.length) []).map (·.2)
  simp only [edges, List.flatMap_nil, List.nil_append, List.map_map, List.map_flatMap] at h1
  have e : ∀ r : Int × List Int, (r.2.map fun s => (r.1, s)).map (·.2) = r.2 := by
    intro r; rw [List.map_map]; simp [Function.comp_def]
  have e2 : (fun r : Int × List Int => (r.2.map ((fun x : Int × Int => x.2) ∘ fun s => (r.1, s)))) = fun r => r.2 := by
    funext r; simp [Function.comp_def]
  rw [e2] at h1
  exact h1

theorem pick_range (rows : List (Int × List Int)) :
    pick rows ((List.range rows.length).map fun q : Nat => (q : Int)) = rows := by
  unfold pick
  rw [List.map_map]
  apply List.ext_getElem?
  intro k
  rw [List.getElem?_map]
  by_cases h : k < rows.length
  · rw [List.getElem?_range h]
    simp [List.getD, h]
  · rw [List.getElem?_eq_none (by simpa using h), List.getElem?_eq_none (by omega)]
    rfl

theorem pick_groups_perm (neg : Bool) (rows : List (Int × List Int)) :
    (pick rows ((groups neg rows).flatMap (·.2))).Perm rows := by
  have h := (groups_perm neg rows).map fun q : Int => rows.getD q.toNat (0, [])
  have e := pick_range rows
  unfold pick at e ⊢
  rw [e] at h
  exact h

theorem groups_sorted (neg : Bool) (rows : List (Int × List Int)) : Sorted (groups neg rows) :=
  foldPush_sorted (fun q : Nat => if neg then -((rows.getD q (0, [])).2.length : Int) else
    ((rows.getD q (0, [])).2.length : Int)) (fun q : Nat => (q : Int)) (List.range rows.length) List.Pairwise.nil

theorem pick_pairwise (rows : List (Int × List Int)) (m : List (Int × List Int)) (hs : Sorted m)
    (hg : ∀ a ∈ m, Group rows (-a.1) a.2) :
    (pick rows (m.flatMap (·.2))).Pairwise fun a b => b.2.length ≤ a.2.length := by
  have hlen : ∀ a ∈ m, ∀ q ∈ a.2, ((rows.getD q.toNat (0, [])).2.length : Int) = -a.1 := by
    intro a ha q hq
    obtain ⟨k, r, rfl, hk, e⟩ := hg a ha q hq
    simp [List.getD, hk, e]
  unfold pick
  rw [List.pairwise_map, List.pairwise_flatMap]
  refine ⟨?_, ?_⟩
  · intro a ha
    apply List.pairwise_of_forall_mem_list
    intro x hx y hy
    have := hlen a ha x hx
    have := hlen a ha y hy
    omega
  · refine hs.imp_of_mem ?_
    intro a b ha hb hab x hx y hy
    have := hlen a ha x hx
    have := hlen b hb y hy
    omega

theorem sort_ok {g : GMap} {rows : List (Int × List Int)} (h : g.Holds rows) (hs : g.sorted = false) :
    ∃ g', g.sort = .ok g' ∧ g'.sorted = true ∧ g'.nOut = g.nOut ∧ g'.nIn = g.nIn ∧
      g'.Holds (pick rows ((groups true rows).flatMap (·.2))) := by
  have hz : g.arr.size = rows.length := by simpa using (HL.Holds.reads h).size
  obtain ⟨p, e1, e2⟩ := Pool.reserve_holds (Pool.holds_empty (α := Int)) g.arr.tail
  obtain ⟨p', f1, f2⟩ := copyGroups_ok h (groups true rows) (R := []) (p := p)
    (by simpa using groups_group true rows) e2
  have e3 : lengthsFrom true g (0 : Int) rows.length [] = .ok (groups true rows) := by
    have := lengthsFrom_ok true h rows.length 0 [] (by omega)
    rw [← List.range_eq_range'] at this
    exact this
  refine ⟨{ g with arr := p', sorted := true }, ?_, rfl, rfl, rfl, ?_⟩
  · unfold sort
    rw [hs, hz, Int.toNat_natCast]
    simp only [Bool.false_eq_true, if_false]
    rw [e3, Res.ok_bind, e1, Res.ok_bind, f1]
    rfl
  · rw [List.nil_append] at f2
    exact f2

end GMap
end Cnine
