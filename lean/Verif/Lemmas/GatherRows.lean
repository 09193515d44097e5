import Verif.Model.GatherRows
import Verif.Lemmas.GatherW
import Mathlib.Algebra.BigOperators.Group.List.Basic
import Mathlib.Algebra.Ring.Defs

/-!
# Gathering rows: effect on the memory
-/

namespace Cnine

variable {α : Type _}

/-- The memory with `f a` added to cell `a`. -/
def Buf.plus [Add α] (m : Buf α) (f : Nat → α) : Buf α := fun a => (m a).map (· + f a)

section
variable [AddCommMonoid α]

theorem Buf.plus_zero (m : Buf α) : m.plus (fun _ => 0) = m := by
  funext a
  unfold Buf.plus
  cases m a <;> simp

theorem Buf.plus_plus (m : Buf α) (f g : Nat → α) : (m.plus f).plus g = m.plus fun a => f a + g a := by
  funext a
  unfold Buf.plus
  cases m a <;> simp [add_assoc]

theorem Buf.incAt_ok {m : Buf α} {a : Int} (ha : 0 ≤ a) (hs : (m a.toNat).isSome) (v : α) :
    m.incAt a v = .ok (m.plus fun b => if b = a.toNat then v else 0) := by
  obtain ⟨u, hu⟩ := Option.isSome_iff_exists.mp hs
  unfold Buf.incAt
  rw [if_neg (by omega)]
  have e1 : m.read a.toNat = .ok u := by unfold Buf.read; rw [hu]
  have e2 : m.write a.toNat (u + v) = .ok (fun b => if b = a.toNat then some (u + v) else m b) := by
    unfold Buf.write; rw [hu]
  rw [e1, Res.ok_bind, e2]
  congr 1
  funext b
  unfold Buf.plus
  by_cases c : b = a.toNat
  · subst c; simp [hu]
  · simp only [if_neg c, add_zero]
    cases m b <;> rfl

theorem Buf.readAt_ok {m : Buf α} {a : Int} (ha : 0 ≤ a) {v : α} (hv : m a.toNat = some v) : m.readAt a = .ok v := by
  unfold Buf.readAt Buf.read
  rw [if_neg (by omega), hv]

/-- What a list of additions `(cell, value)` adds to cell `a`. -/
def addTo (l : List (Nat × α)) (a : Nat) : α := (l.map fun p => if a = p.1 then p.2 else 0).sum

theorem addTo_nil (a : Nat) : addTo ([] : List (Nat × α)) a = 0 := rfl

theorem addTo_append (l l' : List (Nat × α)) (a : Nat) : addTo (l ++ l') a = addTo l a + addTo l' a := by
  unfold addTo; rw [List.map_append, List.sum_append]

theorem addTo_zero {l : List (Nat × α)} {a : Nat} (h : ∀ p ∈ l, p.1 ≠ a) : addTo l a = 0 := by
  induction l with
  | nil => rfl
  | cons p l ih =>
    have h1 := ih (fun q hq => h q (List.mem_cons_of_mem _ hq))
    unfold addTo at h1 ⊢
    rw [List.map_cons, List.sum_cons, h1, if_neg (fun e => h p (by simp) e.symm), add_zero]

theorem forM_add {ι : Type _} (ra xa : ι → Int) (f : ι → α → α) (xv : ι → α) : ∀ (l : List ι) (m : Buf α),
    (∀ i ∈ l, 0 ≤ ra i ∧ (m (ra i).toNat).isSome) → (∀ i ∈ l, 0 ≤ xa i ∧ m (xa i).toNat = some (xv i)) →
    (∀ i ∈ l, ∀ j ∈ l, ra i ≠ xa j) →
    Res.forM l m (fun m i => m.readAt (xa i) >>= fun v => m.incAt (ra i) (f i v)) =
      .ok (m.plus (addTo (l.map fun i => ((ra i).toNat, f i (xv i)))))
  | [], m, _, _, _ => by
    rw [Res.forM_nil]
    congr 1
    exact (Buf.plus_zero m).symm
  | i :: l, m, h1, h2, h3 => by
    have hr := h1 i (by simp)
    have hx := h2 i (by simp)
    rw [Res.forM_cons, Buf.readAt_ok hx.1 hx.2, Res.ok_bind, Buf.incAt_ok hr.1 hr.2, Res.ok_bind]
    rw [forM_add ra xa f xv l _ ?_ ?_ (fun a ha b hb => h3 a (List.mem_cons_of_mem _ ha) b (List.mem_cons_of_mem _ hb)),
      Buf.plus_plus]
    · rfl
    · intro j hj
      have := h1 j (List.mem_cons_of_mem _ hj)
      refine ⟨this.1, ?_⟩
      unfold Buf.plus
      rw [Option.isSome_map]
      exact this.2
    · intro j hj
      have := h2 j (List.mem_cons_of_mem _ hj)
      refine ⟨this.1, ?_⟩
      unfold Buf.plus
      rw [this.2, Option.map_some]
      have hne := h3 i (by simp) j (List.mem_cons_of_mem _ hj)
      have := (h1 i (by simp)).1
      dsimp only
      rw [if_neg (by omega), add_zero]

/-- Cells of a strided row. -/
def M1.cell (r : M1) (c : Nat) : Int := r.arr + r.s0 * c

theorem M1.add_ok {r x : M1} {n : Nat} {m : Buf α} {xv : Nat → α} (hr : r.n0 = n) (hx : x.n0 = n)
    (h1 : ∀ c, c < n → 0 ≤ r.cell c ∧ (m (r.cell c).toNat).isSome)
    (h2 : ∀ c, c < n → 0 ≤ x.cell c ∧ m (x.cell c).toNat = some (xv c))
    (h3 : ∀ c d, c < n → d < n → r.cell c ≠ x.cell d) :
    r.add x m = .ok (m.plus (addTo ((List.range n).map fun c => ((r.cell c).toNat, xv c)))) := by
  unfold M1.add
  rw [Pool.assrt_pos (by omega), Res.ok_bind, hr, Int.toNat_natCast]
  have key := forM_add r.cell x.cell (fun _ v => v) xv (List.range n) m
    (fun i hi => h1 i (List.mem_range.mp hi)) (fun i hi => h2 i (List.mem_range.mp hi))
    (fun i hi j hj => h3 i j (List.mem_range.mp hi) (List.mem_range.mp hj))
  split
  · rename_i hs
    rw [← key]
    unfold loop M1.cell
    simp only [hs.1, hs.2, Int.one_mul]
  · exact key

end

theorem M1.addScaled_ok [Semiring α] {r x : M1} {n : Nat} {m : Buf α} {xv : Nat → α} (w : α) (hr : r.n0 = n)
    (hx : x.n0 = n)
    (h1 : ∀ c, c < n → 0 ≤ r.cell c ∧ (m (r.cell c).toNat).isSome)
    (h2 : ∀ c, c < n → 0 ≤ x.cell c ∧ m (x.cell c).toNat = some (xv c))
    (h3 : ∀ c d, c < n → d < n → r.cell c ≠ x.cell d) :
    r.addScaled x w m = .ok (m.plus (addTo ((List.range n).map fun c => ((r.cell c).toNat, w * xv c)))) := by
  unfold M1.addScaled
  rw [Pool.assrt_pos (by omega), Res.ok_bind, hr, Int.toNat_natCast]
  have key := forM_add r.cell x.cell (fun _ v => w * v) xv (List.range n) m
    (fun i hi => h1 i (List.mem_range.mp hi)) (fun i hi => h2 i (List.mem_range.mp hi))
    (fun i hi j hj => h3 i j (List.mem_range.mp hi) (List.mem_range.mp hj))
  split
  · rename_i hs
    rw [← key]
    unfold loop M1.cell
    simp only [hs.1, hs.2, Int.one_mul]
  · exact key

/-- Cells of a matrix. -/
def M2.cell (v : M2) (t : Int) (c : Nat) : Int := v.arr + t * v.s0 + v.s1 * c

namespace GatherRows

/-- The target rows `T` are allocated, the source rows `S` hold `xv`, and they do not meet. -/
structure Ready (r x : M2) (n : Nat) (T S : Int → Prop) (xv : Int → Nat → α) (m : Buf α) : Prop where
  rn : r.n1 = n
  xn : x.n1 = n
  out : ∀ t, T t → ∀ c, c < n → 0 ≤ r.cell t c ∧ (m (r.cell t c).toNat).isSome
  inn : ∀ s, S s → ∀ c, c < n → 0 ≤ x.cell s c ∧ m (x.cell s c).toNat = some (xv s c)
  apart : ∀ t s, T t → S s → ∀ c d, c < n → d < n → r.cell t c ≠ x.cell s d

/-- The additions one edge makes. -/
def edgeAdds (r : M2) (n : Nat) (t : Int) (row : Nat → α) : List (Nat × α) :=
  (List.range n).map fun c => ((r.cell t c).toNat, row c)

variable {r x : M2} {n : Nat} {T S : Int → Prop} {xv : Int → Nat → α}

theorem Ready.plus [AddCommMonoid α] {m : Buf α} (h : Ready r x n T S xv m) {l : List (Nat × α)}
    (hl : ∀ p ∈ l, ∃ t c, T t ∧ c < n ∧ p.1 = (r.cell t c).toNat) : Ready r x n T S xv (m.plus (addTo l)) := by
  refine ⟨h.rn, h.xn, ?_, ?_, h.apart⟩
  · intro t ht c hc
    have := h.out t ht c hc
    refine ⟨this.1, ?_⟩
    unfold Buf.plus
    rw [Option.isSome_map]
    exact this.2
  · intro s hs c hc
    have := h.inn s hs c hc
    refine ⟨this.1, ?_⟩
    unfold Buf.plus
    rw [this.2, Option.map_some, addTo_zero, add_zero]
    intro p hp e
    obtain ⟨t, d, ht, hd, e'⟩ := hl p hp
    have h1 := h.apart t s ht hs d c hd hc
    have h2 := (h.out t ht d hd).1
    omega

theorem edgeAdds_mem {t : Int} (ht : T t) (row : Nat → α) :
    ∀ p ∈ edgeAdds r n t row, ∃ t c, T t ∧ c < n ∧ p.1 = (r.cell t c).toNat := by
  intro p hp
  obtain ⟨c, hc, rfl⟩ := List.mem_map.mp hp
  exact ⟨t, c, ht, List.mem_range.mp hc, rfl⟩

theorem row_add [AddCommMonoid α] {m : Buf α} (h : Ready r x n T S xv m) {t s : Int} (ht : T t) (hs : S s) :
    (r.slice0 t).add (x.slice0 s) m = .ok (m.plus (addTo (edgeAdds r n t (xv s)))) :=
  M1.add_ok h.rn h.xn (h.out t ht) (h.inn s hs) (h.apart t s ht hs)

theorem row_addScaled [Semiring α] {m : Buf α} (h : Ready r x n T S xv m) {t s : Int} (ht : T t) (hs : S s) (w : α) :
    M1.addScaled { r.slice0 t with n0 := x.n1 } (x.slice0 s) w m =
      .ok (m.plus (addTo (edgeAdds r n t fun c => w * xv s c))) :=
  M1.addScaled_ok (r := { r.slice0 t with n0 := x.n1 }) w h.xn h.xn (h.out t ht) (h.inn s hs) (h.apart t s ht hs)

/-- The additions of a list of edges. -/
def adds (r : M2) (n : Nat) (xv : Int → Nat → α) (es : List (Int × Int)) : List (Nat × α) :=
  es.flatMap fun e => edgeAdds r n e.1 (xv e.2)

theorem adds_mem {es : List (Int × Int)} (h : ∀ e ∈ es, T e.1) :
    ∀ p ∈ adds r n xv es, ∃ t c, T t ∧ c < n ∧ p.1 = (r.cell t c).toNat := by
  intro p hp
  obtain ⟨e, he, hp⟩ := List.mem_flatMap.mp hp
  exact edgeAdds_mem (h e he) _ p hp

theorem rowLoop_ok [AddCommMonoid α] {g : GMap} {rows : List (Int × List Int)} (hg : g.Holds rows) {i : Nat}
    {q : Int × List Int} (hi : rows[i]? = some q) (hT : T q.1) (hS : ∀ s ∈ q.2, S s) :
    ∀ (k j : Nat) {m : Buf α}, j + k = q.2.length → Ready r x n T S xv m →
    rowLoop g (r.slice0 q.1) x i j k m =
      .ok (m.plus (addTo (adds r n xv ((q.2.drop j).map fun s => (q.1, s))))) := by
  intro k
  induction k with
  | zero =>
    intro j m hj _
    rw [List.drop_of_length_le (by omega)]
    unfold rowLoop
    congr 1
    exact (Buf.plus_zero m).symm
  | succ k ih =>
    intro j m hj hm
    have hr := (HL.Holds.reads hg).get i (HeadSpec.HRow.full q.1 q.2) j (q.2[j]'(by omega))
      (by rw [List.getElem?_map, hi]; rfl) (by
        simp only [HeadSpec.HRow.full, List.getElem?_map]
        rw [List.getElem?_eq_getElem (by omega)]; rfl)
    have hs : S (q.2[j]'(by omega)) := hS _ (List.getElem_mem _)
    unfold rowLoop
    rw [hr, Res.ok_bind, row_add hm hT hs, Res.ok_bind]
    have := ih (j + 1) (by omega) (hm.plus (edgeAdds_mem hT (xv (q.2[j]'(by omega)))))
    rw [show ((j : Int) + 1) = ((j + 1 : Nat) : Int) by omega, this, Buf.plus_plus,
      List.drop_eq_getElem_cons (show j < q.2.length by omega)]
    congr 2
    funext a
    unfold adds
    rw [List.map_cons, List.flatMap_cons, addTo_append]

theorem rowsLoop_ok [AddCommMonoid α] {g : GMap} {rows : List (Int × List Int)} (hg : g.Holds rows)
    (hT : ∀ q ∈ rows, q.2 ≠ [] → T q.1) (hS : ∀ q ∈ rows, ∀ s ∈ q.2, S s) :
    ∀ (k i : Nat) {m : Buf α}, i + k = rows.length → Ready r x n T S xv m →
    rowsLoop g r x i k m = .ok (m.plus (addTo (adds r n xv (GatherSpec.edges (rows.drop i))))) := by
  intro k
  induction k with
  | zero =>
    intro i m hi _
    rw [List.drop_of_length_le (by omega)]
    unfold rowsLoop
    congr 1
    exact (Buf.plus_zero m).symm
  | succ k ih =>
    intro i m hi hm
    have hl : rows[i]? = some rows[i] := List.getElem?_eq_getElem (by omega)
    have hmem : rows[i] ∈ rows := List.getElem_mem _
    have hf : (rows.map fun r => HeadSpec.HRow.full r.1 r.2)[i]? = some (HeadSpec.HRow.full rows[i].1 rows[i].2) := by
      rw [List.getElem?_map, hl]; rfl
    have hr := HL.Holds.reads hg
    have e3 : ((HeadSpec.HRow.full rows[i].1 rows[i].2).cells.length : Int).toNat = rows[i].2.length := by
      simp [HeadSpec.HRow.full]
    unfold rowsLoop
    rw [hr.head i _ _ hf rfl, Res.ok_bind, hr.sizeOf i _ hf, Res.ok_bind, e3]
    have hmem' : ∀ e ∈ rows[i].2.map fun s => (rows[i].1, s), T e.1 := by
      intro e he
      obtain ⟨s, hs, rfl⟩ := List.mem_map.mp he
      exact hT _ hmem (List.ne_nil_of_mem hs)
    have e1 : rowLoop g (r.slice0 rows[i].1) x i (0 : Int) rows[i].2.length m =
        .ok (m.plus (addTo (adds r n xv (rows[i].2.map fun s => (rows[i].1, s))))) := by
      by_cases hn : rows[i].2 = []
      · rw [hn]
        unfold rowLoop
        simp only [List.length_nil, List.map_nil]
        congr 1
        exact (Buf.plus_zero m).symm
      · exact rowLoop_ok hg hl (hT _ hmem hn) (hS _ hmem) rows[i].2.length 0 (by omega) hm
    rw [e1, Res.ok_bind]
    have := ih (i + 1) (by omega) (hm.plus (adds_mem (xv := xv) hmem'))
    rw [show ((i : Int) + 1) = ((i + 1 : Nat) : Int) by omega, this, Buf.plus_plus,
      List.drop_eq_getElem_cons (show i < rows.length by omega)]
    congr 2
    funext a
    unfold adds GatherSpec.edges
    rw [List.flatMap_cons, List.flatMap_append, addTo_append]

/-! ## Weighted -/

/-- The additions of a list of weighted edges. -/
def addsW [Mul α] (wt : Int → α) (r : M2) (n : Nat) (xv : Int → Nat → α) (es : List (Int × Int × Int)) : List (Nat × α) :=
  es.flatMap fun e => edgeAdds r n e.1 fun c => wt e.2.2 * xv e.2.1 c

theorem addsW_mem [Mul α] {wt : Int → α} {es : List (Int × Int × Int)} (h : ∀ e ∈ es, T e.1) :
    ∀ p ∈ addsW wt r n xv es, ∃ t c, T t ∧ c < n ∧ p.1 = (r.cell t c).toNat := by
  intro p hp
  obtain ⟨e, he, hp⟩ := List.mem_flatMap.mp hp
  exact edgeAdds_mem (h e he) _ p hp

theorem rowLoopW_ok [Semiring α] (wt : Int → α) {g : GMap} {rows : List (Int × List (Int × Int))}
    (hg : WMap.Holds g rows) {i : Nat} {q : Int × List (Int × Int)} (hi : rows[i]? = some q) (hT : T q.1)
    (hS : ∀ e ∈ q.2, S e.1) :
    ∀ (k j : Nat) {m : Buf α}, j + k = q.2.length → Ready r x n T S xv m →
    rowLoopW wt g { r.slice0 q.1 with n0 := x.n1 } x i j k m =
      .ok (m.plus (addTo (addsW wt r n xv ((q.2.drop j).map fun s => (q.1, s))))) := by
  intro k
  induction k with
  | zero =>
    intro j m hj _
    rw [List.drop_of_length_le (by omega)]
    unfold rowLoopW
    congr 1
    exact (Buf.plus_zero m).symm
  | succ k ih =>
    intro j m hj hm
    have hl : q.2[j]? = some (q.2[j]'(by omega)) := List.getElem?_eq_getElem (by omega)
    have hs : S (q.2[j]'(by omega)).1 := hS _ (List.getElem_mem _)
    unfold rowLoopW
    rw [WMap.src_ok hg hi hl, Res.ok_bind, WMap.weight_ok hg hi hl, Res.ok_bind, row_addScaled hm hT hs, Res.ok_bind]
    have := ih (j + 1) (by omega) (hm.plus (edgeAdds_mem hT (fun c => wt (q.2[j]'(by omega)).2 * xv (q.2[j]'(by omega)).1 c)))
    rw [show ((j : Int) + 1) = ((j + 1 : Nat) : Int) by omega, this, Buf.plus_plus,
      List.drop_eq_getElem_cons (show j < q.2.length by omega)]
    congr 2
    funext a
    unfold addsW
    rw [List.map_cons, List.flatMap_cons, addTo_append]

theorem rowsLoopW_ok [Semiring α] (wt : Int → α) {g : GMap} {rows : List (Int × List (Int × Int))}
    (hg : WMap.Holds g rows) (hT : ∀ q ∈ rows, q.2 ≠ [] → T q.1) (hS : ∀ q ∈ rows, ∀ e ∈ q.2, S e.1) :
    ∀ (k i : Nat) {m : Buf α}, i + k = rows.length → Ready r x n T S xv m →
    rowsLoopW wt g r x i k m = .ok (m.plus (addTo (addsW wt r n xv (GatherSpec.edges (rows.drop i))))) := by
  intro k
  induction k with
  | zero =>
    intro i m hi _
    rw [List.drop_of_length_le (by omega)]
    unfold rowsLoopW
    congr 1
    exact (Buf.plus_zero m).symm
  | succ k ih =>
    intro i m hi hm
    have hl : rows[i]? = some rows[i] := List.getElem?_eq_getElem (by omega)
    have hmem : rows[i] ∈ rows := List.getElem_mem _
    unfold rowsLoopW
    rw [(HL.Holds.reads hg).head i _ _ (WMap.full_row hl) rfl, Res.ok_bind, WMap.sizeOf_ok hg hl, Res.ok_bind,
      Int.toNat_natCast]
    have hmem' : ∀ e ∈ rows[i].2.map fun s => (rows[i].1, s), T e.1 := by
      intro e he
      obtain ⟨s, hs, rfl⟩ := List.mem_map.mp he
      exact hT _ hmem (List.ne_nil_of_mem hs)
    have e1 : rowLoopW wt g { r.slice0 rows[i].1 with n0 := x.n1 } x i (0 : Int) rows[i].2.length m =
        .ok (m.plus (addTo (addsW wt r n xv (rows[i].2.map fun s => (rows[i].1, s))))) := by
      by_cases hn : rows[i].2 = []
      · rw [hn]
        unfold rowLoopW
        simp only [List.length_nil, List.map_nil]
        congr 1
        exact (Buf.plus_zero m).symm
      · exact rowLoopW_ok wt hg hl (hT _ hmem hn) (hS _ hmem) rows[i].2.length 0 (by omega) hm
    rw [e1, Res.ok_bind]
    have := ih (i + 1) (by omega) (hm.plus (addsW_mem (xv := xv) (wt := wt) hmem'))
    rw [show ((i : Int) + 1) = ((i + 1 : Nat) : Int) by omega, this, Buf.plus_plus,
      List.drop_eq_getElem_cons (show i < rows.length by omega)]
    congr 2
    funext a
    unfold addsW GatherSpec.edges
    rw [List.flatMap_cons, List.flatMap_append, addTo_append]

end GatherRows

end Cnine
