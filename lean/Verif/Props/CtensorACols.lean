import Verif.Model.CtensorACols
import Verif.Props.CtensorAOps

/-!
# C504, C505, C508: columns of complex tensors of the old backend
-/

namespace Cnine

variable {α : Type}

namespace CA

open RA (cells Free flat nth two_lt two_inj noRow)

/-- Block by block: every block of places gets its new numbers, nothing else changes. -/
theorem cblocks_core {ι : Type} {r : CA} {D : List Nat} {F : List Nat → Cx α} {m : Buf α} (hr : r.Is D F m) (l : List ι) (hl : l.Nodup) (blk : ι → List Nat → Prop)
    (hall : ∀ ix, InRange ix D → ∃ i ∈ l, blk i ix) (hone : ∀ i j ix, blk i ix → blk j ix → i = j) (new : List Nat → Cx α) (step : Buf α → ι → Res (Buf α))
    (hs : ∀ i ∈ l, ∀ m' : Buf α, (∀ c, ¬ r.Owns c → m' c = m c) →
      (∀ ix, InRange ix D → blk i ix → m' (r.arr + position D ix) = some (F ix).re ∧ m' (r.arrc + position D ix) = some (F ix).im) →
      ∃ m'', step m' i = .ok m'' ∧ (∀ ix, InRange ix D → blk i ix → m'' (r.arr + position D ix) = some (new ix).re ∧ m'' (r.arrc + position D ix) = some (new ix).im) ∧
        ∀ c, (∀ ix, InRange ix D → blk i ix → c ≠ r.arr + position D ix ∧ c ≠ r.arrc + position D ix) → m'' c = m' c) :
    ∃ m', Res.forM l m step = .ok m' ∧ r.Becomes D new m m' := by
  have inj : ∀ ix jx, InRange ix D → InRange jx D → position D ix = position D jx → ix = jx := fun ix jx a b e => by
    rw [← nth_pos a, ← nth_pos b, e]
  have ap : ∀ ix jx, InRange ix D → InRange jx D → r.arr + position D ix ≠ r.arrc + position D jx := fun ix jx a b => hr.apart _ _ (position_lt a) (position_lt b)
  classical
  obtain ⟨m', h1, h2, h3⟩ := forM_regions l step (fun i c => ∃ ix, InRange ix D ∧ blk i ix ∧ (c = r.arr + position D ix ∨ c = r.arrc + position D ix))
    (fun _ c => if ∃ ix, InRange ix D ∧ c = r.arr + position D ix then some (new (nth D (c - r.arr))).re else some (new (nth D (c - r.arrc))).im) m hl
    (by
      rintro i _ j _ hij c ⟨ix, a1, a2, rfl | rfl⟩ ⟨jx, b1, b2, e | e⟩
      · have := inj ix jx a1 b1 (by omega)
        subst this
        exact hij (hone i j ix a2 b2)
      · exact ap ix jx a1 b1 e
      · exact ap jx ix b1 a1 e.symm
      · have := inj ix jx a1 b1 (by omega)
        subst this
        exact hij (hone i j ix a2 b2))
    (by
      intro i hi m' hm
      obtain ⟨m'', e1, e2, e3⟩ := hs i hi m'
        (fun c hc => hm c (by rintro j _ _ ⟨jx, b1, _, rfl | rfl⟩; exact hc (hr.owns (position_lt b1)).1; exact hc (hr.owns (position_lt b1)).2))
        (fun ix a1 a2 => by
          constructor
          · rw [hm _ (by
              rintro j _ hne ⟨jx, b1, b2, e | e⟩
              · have := inj ix jx a1 b1 (by omega)
                subst this
                exact hne (hone j i ix b2 a2)
              · exact ap ix jx a1 b1 e), (hr.has ix a1).1]
          · rw [hm _ (by
              rintro j _ hne ⟨jx, b1, b2, e | e⟩
              · exact ap jx ix b1 a1 e.symm
              · have := inj ix jx a1 b1 (by omega)
                subst this
                exact hne (hone j i ix b2 a2)), (hr.has ix a1).2])
      refine ⟨m'', e1, ?_, fun c hc => e3 c fun ix a1 a2 => ⟨fun e => hc ⟨ix, a1, a2, .inl e⟩, fun e => hc ⟨ix, a1, a2, .inr e⟩⟩⟩
      rintro c ⟨ix, a1, a2, rfl | rfl⟩
      · rw [if_pos ⟨ix, a1, rfl⟩, (e2 ix a1 a2).1, Nat.add_sub_cancel_left, nth_pos a1]
      · rw [if_neg (by rintro ⟨jx, b1, e⟩; exact ap jx ix b1 a1 e.symm), (e2 ix a1 a2).2, Nat.add_sub_cancel_left, nth_pos a1])
  refine ⟨m', h1, ⟨hr.ne, hr.dims, hr.strides, hr.asize, hr.room, fun ix hi => ?_, hr.apart⟩, fun c hc => h3 c ?_⟩
  · obtain ⟨i, a1, a2⟩ := hall ix hi
    rw [h2 i a1 _ ⟨ix, hi, a2, .inl rfl⟩, h2 i a1 _ ⟨ix, hi, a2, .inr rfl⟩, if_pos ⟨ix, hi, rfl⟩, if_neg (by rintro ⟨jx, b1, e⟩; exact ap jx ix b1 hi e.symm),
      Nat.add_sub_cancel_left, Nat.add_sub_cancel_left, nth_pos hi]
    exact ⟨rfl, rfl⟩
  · rintro i _ ⟨ix, a1, _, rfl | rfl⟩
    · exact hc (hr.owns (position_lt a1)).1
    · exact hc (hr.owns (position_lt a1)).2

theorem Is.pos2 {x : CA} {A : List Nat} {I J : Nat} {F : List Nat → Cx α} {m : Buf α} (h : x.Is (A ++ [I, J]) F m) {ia : List Nat} (ha : InRange ia A) {i j : Nat} (hi : i < I)
    (hj : j < J) : (m (x.arr + (position A ia * I * J + i * J + j)) = some (F (ia ++ [i, j])).re ∧ m (x.arrc + (position A ia * I * J + i * J + j)) = some (F (ia ++ [i, j])).im) ∧
      x.Owns (x.arr + (position A ia * I * J + i * J + j)) ∧ x.Owns (x.arrc + (position A ia * I * J + i * J + j)) :=
  ⟨⟨(last2_at h.re ha hi hj).1, (last2_at h.im ha hi hj).1⟩, .inl (last2_at h.re ha hi hj).2, .inr (last2_at h.im ha hi hj).2⟩

theorem Is.pos1 {x : CA} {A : List Nat} {J : Nat} {F : List Nat → Cx α} {m : Buf α} (h : x.Is (A ++ [J]) F m) {ia : List Nat} (ha : InRange ia A) {j : Nat}
    (hj : j < J) : (m (x.arr + (position A ia * J + j)) = some (F (ia ++ [j])).re ∧ m (x.arrc + (position A ia * J + j)) = some (F (ia ++ [j])).im) ∧
      x.Owns (x.arr + (position A ia * J + j)) ∧ x.Owns (x.arrc + (position A ia * J + j)) :=
  ⟨⟨(last_at h.re ha hj).1, (last_at h.im ha hj).1⟩, .inl (last_at h.re ha hj).2, .inr (last_at h.im ha hj).2⟩

/-- Column by column. -/
theorem ccols_core {r : CA} {A : List Nat} {I J : Nat} {F : List Nat → Cx α} {m : Buf α} (hr : r.Is (A ++ [I, J]) F m) (new : List Nat → Cx α)
    (step : Nat → Nat → Buf α → Res (Buf α))
    (hs : ∀ ia, InRange ia A → ∀ j, j < J → ∀ m' : Buf α, (∀ c, ¬ r.Owns c → m' c = m c) →
      ∃ inner : Nat → Buf α → Res (Buf α), step (position A ia) j m' = loop I m' inner ∧ ∀ i, i < I → ∀ m'' : Buf α, (∀ c, ¬ r.Owns c → m'' c = m c) →
        m'' (r.arr + (position A ia * I * J + i * J + j)) = some (F (ia ++ [i, j])).re → m'' (r.arrc + (position A ia * I * J + i * J + j)) = some (F (ia ++ [i, j])).im →
        inner i m'' = setC (r.arr + (position A ia * I * J + i * J + j)) (r.arrc + (position A ia * I * J + i * J + j)) (new (ia ++ [i, j])) m'') :
    ∃ m', (loop A.prod m fun a m => loop J m fun j m => step a j m) = .ok m' ∧ r.Becomes (A ++ [I, J]) new m m' := by
  rw [loop2_eq]
  apply cblocks_core hr (pairs A.prod J) (nodup_pairs _ _) (fun p ix => ∃ ia i, InRange ia A ∧ i < I ∧ ix = ia ++ [i, p.2] ∧ position A ia = p.1)
  · intro ix hi
    obtain ⟨ia, i, j, rfl, a1, a2, a3⟩ := range_last2 hi
    exact ⟨(position A ia, j), mem_pairs.2 ⟨position_lt a1, a3⟩, ia, i, a1, a2, rfl, rfl⟩
  · rintro ⟨a, j⟩ ⟨a', j'⟩ ix ⟨ia, i, h1, h2, rfl, h4⟩ ⟨ia', i', k1, k2, k3, k4⟩
    obtain ⟨e1, e2⟩ := List.append_inj k3 (by rw [h1.length, k1.length])
    simp only [List.cons.injEq, and_true] at e2
    subst e1
    rw [Prod.mk.injEq]
    exact ⟨h4.symm.trans k4, e2.2⟩
  · rintro ⟨a, j⟩ hp m' hm hv
    obtain ⟨p1, p2⟩ := mem_pairs.1 hp
    simp only at p1 p2 ⊢
    obtain ⟨ia, i1, rfl⟩ := GT.surj p1
    obtain ⟨inner, e1, e2⟩ := hs ia i1 j p2 m' hm
    have rg : ∀ i, i < I → InRange (ia ++ [i, j]) (A ++ [I, J]) := fun i hi => GT.inRange_app i1 (.cons hi (.cons p2 .nil))
    have hv' : ∀ i, i < I → m' (r.arr + (position A ia * I * J + i * J + j)) = some (F (ia ++ [i, j])).re ∧
        m' (r.arrc + (position A ia * I * J + i * J + j)) = some (F (ia ++ [i, j])).im := fun i hi => by
      rw [← pos_last2 i1.length]; exact hv _ (rg i hi) ⟨ia, i, i1, hi, rfl, rfl⟩
    have sep : ∀ i k, position A ia * I * J + i * J + j = position A ia * I * J + k * J + j → i = k := fun i k e =>
      Nat.eq_of_mul_eq_mul_right (Nat.lt_of_le_of_lt (Nat.zero_le j) p2) (by omega : i * J = k * J)
    have ap : ∀ i k, i < I → k < I → r.arr + (position A ia * I * J + i * J + j) ≠ r.arrc + (position A ia * I * J + k * J + j) := fun i k hi hk => by
      rw [← pos_last2 i1.length, ← pos_last2 i1.length]; exact hr.apart _ _ (position_lt (rg i hi)) (position_lt (rg k hk))
    obtain ⟨m'', g1, g2, g3⟩ := ccells_run (List.range I) (fun i => r.arr + (position A ia * I * J + i * J + j)) (fun i => r.arrc + (position A ia * I * J + i * J + j))
      (fun i => new (ia ++ [i, j])) (fun m i => inner i m) m' List.nodup_range (fun i _ k _ e => sep i k (by omega)) (fun i _ k _ e => sep i k (by omega))
      (fun i hi k hk => ap i k (List.mem_range.1 hi) (List.mem_range.1 hk))
      (fun i hi => by rw [(hv' i (List.mem_range.1 hi)).1, (hv' i (List.mem_range.1 hi)).2]; exact ⟨rfl, rfl⟩)
      (fun i hi m'' hm'' => by
        have hi := List.mem_range.1 hi
        refine e2 i hi m'' (fun c hc => ?_) ?_ ?_
        · rw [hm'' c fun k hk _ => ⟨fun e => hc (e ▸ (hr.pos2 i1 (List.mem_range.1 hk) p2).2.1), fun e => hc (e ▸ (hr.pos2 i1 (List.mem_range.1 hk) p2).2.2)⟩, hm c hc]
        · rw [hm'' _ fun k hk hne => ⟨fun e => hne (sep i k (by omega)).symm, ap i k hi (List.mem_range.1 hk)⟩, (hv' i hi).1]
        · rw [hm'' _ fun k hk hne => ⟨(ap k i (List.mem_range.1 hk) hi).symm, fun e => hne (sep i k (by omega)).symm⟩, (hv' i hi).2])
    refine ⟨m'', by rw [e1]; exact g1, ?_, fun c hc => g3 c fun i hi => ?_⟩
    · rintro ix _ ⟨ia', i, k1, k2, rfl, k4⟩
      have : ia' = ia := by rw [← nth_pos k1, k4, nth_pos i1]
      subst this
      rw [pos_last2 k1.length]; exact g2 i (List.mem_range.2 k2)
    · rw [← pos_last2 i1.length]; exact hc _ (rg i (List.mem_range.1 hi)) ⟨ia, i, i1, List.mem_range.1 hi, rfl, rfl⟩

/-! ### C504: columns -/

/-- The norms of the columns are added to the real parts. -/
theorem C504_addColNorms [NonUnitalNonAssocSemiring α] (sq : α → α) {r x : CA} {A : List Nat} {I J : Nat} {F G : List Nat → Cx α} {m : Buf α} (hr : r.Is (A ++ [J]) F m)
    (hx : x.Is (A ++ [I, J]) G m) (h0 : I * J ≠ 0) (ha : r.Apart x) :
    ∃ m', r.addColNorms sq x m = .ok m' ∧
      r.Becomes (A ++ [J]) (fun ix => ⟨(F ix).re + sq ((List.range I).map fun i => (G (ix.insertIdx A.length i)).re * (G (ix.insertIdx A.length i)).re +
        (G (ix.insertIdx A.length i)).im * (G (ix.insertIdx A.length i)).im).sum, (F ix).im⟩) m m' := by
  rw [addColNorms, lastTwo, lastTwo_ok hx.re h0, Res.ok_bind]
  simp only
  rw [decide_eq_true (by rw [hr.asize]; simp), Res.assrt_true, Res.ok_bind]
  have := pair_core hr.re (fun ix => (F ix).re + sq ((List.range I).map fun i => (G (ix.insertIdx A.length i)).re * (G (ix.insertIdx A.length i)).re +
        (G (ix.insertIdx A.length i)).im * (G (ix.insertIdx A.length i)).im).sum)
    (fun a j m => do
      let t ← loop I (0 : α) fun i t => do
        let v ← m.read (x.arr + (a * I * J + i * J + j))
        let w ← m.read (x.arrc + (a * I * J + i * J + j))
        .ok (t + (v * v + w * w))
      incCell m (r.arr + (a * J + j)) (sq t)) (by
    intro ia a1 ib a2 m' hm hv
    obtain ⟨j, l, h1, h2, rfl⟩ := List.forall₂_cons_right_iff.1 a2
    rw [List.forall₂_nil_right_iff] at h2
    subst h2
    have ej : position [J] [j] = j := by simp [position]
    rw [ej] at hv ⊢
    simp only [List.prod_singleton] at hv ⊢
    rw [loop_sum I 0 _ (fun i => (G (ia ++ [i, j])).re * (G (ia ++ [i, j])).re + (G (ia ++ [i, j])).im * (G (ia ++ [i, j])).im) fun i hi t => by
      obtain ⟨⟨b1, b2⟩, b3, b4⟩ := hx.pos2 a1 hi h1
      rw [read_ok ((hm _ fun ho => ha _ (.inl ho) b3).trans b1), Res.ok_bind, read_ok ((hm _ fun ho => ha _ (.inl ho) b4).trans b2), Res.ok_bind]]
    rw [Res.ok_bind]
    refine (incCell_ok hv _).trans ?_
    rw [zero_add]
    congr 4
    refine List.map_congr_left fun i _ => ?_
    rw [← a1.length, RA.insert_axis])
  obtain ⟨m', e1, e2⟩ := this
  refine ⟨m', by simpa only [List.prod_singleton] using e1, becomes_congr (two hr e2 ⟨hr.im_after e2, fun _ _ => rfl⟩) fun ix _ => rfl⟩

theorem cols_size {x N : CA} {A : List Nat} {I J : Nat} {F G : List Nat → Cx α} {m : Buf α} (hx : x.Is (A ++ [I, J]) F m) (hN : N.Is (A ++ [J]) G m) (h0 : I * J ≠ 0) :
    N.asize = x.asize / I := by
  have hI : 0 < I := Nat.pos_of_ne_zero fun e => h0 (by rw [e, Nat.zero_mul])
  rw [hx.asize, hN.asize]
  simp only [List.prod_append, List.prod_cons, List.prod_nil, Nat.mul_one]
  rw [Nat.mul_left_comm, Nat.mul_div_cancel_left _ hI]

theorem step_inc [Add α] {r X : CA} {p : Nat} {a b : Cx α} {m : Buf α} (f g : α) (F : α → α) (h1 : m (r.arr + p) = some a.re) (h2 : m (r.arrc + p) = some a.im)
    (h3 : m (X.arr + p) = some b.re) (h4 : m (X.arrc + p) = some b.im) (n1 : r.arr + p ≠ r.arrc + p) (n2 : r.arr + p ≠ X.arrc + p) (e1 : F b.re = f) (e2 : F b.im = g) :
    (do
      let v ← m.read (X.arr + p)
      let m ← incCell m (r.arr + p) (F v)
      let w ← m.read (X.arrc + p)
      incCell m (r.arrc + p) (F w)) = setC (r.arr + p) (r.arrc + p) ⟨a.re + f, a.im + g⟩ m := by
  subst e1 e2
  rw [read_ok h3, Res.ok_bind, incCell_ok h1, setC]
  cases hw : m.write (r.arr + p) (a.re + F b.re) with
  | ok m' =>
    rw [write_ok h1] at hw
    cases hw
    rw [Res.ok_bind, read_ok (a := b.im) (by rw [if_neg n2.symm]; exact h4), Res.ok_bind, incCell_ok (a := a.im) (by rw [if_neg n1.symm]; exact h2), Res.ok_bind]
  | throw => rfl
  | ub => rfl

/-- `add_divide_cols`. -/
theorem C504_addDivideCols [Add α] [Div α] {r X N : CA} {A : List Nat} {I J : Nat} {F G n : List Nat → Cx α} {m : Buf α} (hr : r.Is (A ++ [I, J]) F m)
    (hX : X.Is (A ++ [I, J]) G m) (hN : N.Is (A ++ [J]) n m) (h0 : I * J ≠ 0) (haX : r.Apart X) (haN : r.Apart N) :
    ∃ m', r.addDivideCols X N m = .ok m' ∧
      r.Becomes (A ++ [I, J]) (fun ix => ⟨(F ix).re + (G ix).re / (n (noRow ix)).re, (F ix).im + (G ix).im / (n (noRow ix)).re⟩) m m' := by
  rw [addDivideCols, decide_eq_true (by rw [hr.dims]; simp), Res.assrt_true, Res.ok_bind, decide_eq_true (by rw [hr.asize, hX.asize]), Res.assrt_true, Res.ok_bind,
    lastTwo, lastTwo_ok hr.re h0, Res.ok_bind]
  simp only
  rw [decide_eq_true (cols_size hr hN h0), Res.assrt_true, Res.ok_bind, colsLoop]
  refine ccols_core hr _ _ fun ia a1 j hj m' hm => ?_
  obtain ⟨⟨n1, _⟩, n2, _⟩ := hN.pos1 a1 hj
  refine ⟨_, by rw [read_ok ((hm _ fun ho => haN _ ho n2).trans n1), Res.ok_bind], fun i hi m'' hm'' hv hw => ?_⟩
  obtain ⟨⟨b1, b2⟩, b3, b4⟩ := hX.pos2 a1 hi hj
  obtain ⟨_, o1, o2⟩ := hr.pos2 a1 hi hj
  rw [noRow_app]
  exact step_inc _ _ (fun v => v / (n (ia ++ [j])).re) hv hw ((hm'' _ fun ho => haX _ ho b3).trans b1) ((hm'' _ fun ho => haX _ ho b4).trans b2)
    (by rw [← pos_last2 a1.length]; exact hr.apart _ _ (position_lt (GT.inRange_app a1 (.cons hi (.cons hj .nil)))) (position_lt (GT.inRange_app a1 (.cons hi (.cons hj .nil)))))
    (fun e => haX _ o1 (e ▸ b4)) rfl rfl

/-- `add_col_norms_back`: with real parts of `G` and `N` only, each column of `X` times `G/N` is added. -/
theorem C504_addColNormsBack [Add α] [Mul α] [Div α] {r G X N : CA} {A : List Nat} {I J : Nat} {F U V n : List Nat → Cx α} {m : Buf α} (hr : r.Is (A ++ [I, J]) F m)
    (hG : G.Is (A ++ [J]) U m) (hX : X.Is (A ++ [I, J]) V m) (hN : N.Is (A ++ [J]) n m) (h0 : I * J ≠ 0) (haG : r.Apart G) (haX : r.Apart X) (haN : r.Apart N) :
    ∃ m', r.addColNormsBack G X N m = .ok m' ∧
      r.Becomes (A ++ [I, J]) (fun ix => ⟨(F ix).re + (V ix).re * ((U (noRow ix)).re / (n (noRow ix)).re), (F ix).im + (V ix).im * ((U (noRow ix)).re / (n (noRow ix)).re)⟩) m m' := by
  rw [addColNormsBack, decide_eq_true (by rw [hr.dims]; simp), Res.assrt_true, Res.ok_bind, decide_eq_true (by rw [hr.asize, hX.asize]), Res.assrt_true, Res.ok_bind,
    lastTwo, lastTwo_ok hr.re h0, Res.ok_bind]
  simp only
  rw [decide_eq_true (cols_size hr hN h0), Res.assrt_true, Res.ok_bind, decide_eq_true (by rw [hG.asize, hN.asize]), Res.assrt_true, Res.ok_bind, colsLoop]
  refine ccols_core hr _ _ fun ia a1 j hj m' hm => ?_
  obtain ⟨⟨n1, _⟩, n2, _⟩ := hN.pos1 a1 hj
  obtain ⟨⟨g1, _⟩, g2, _⟩ := hG.pos1 a1 hj
  refine ⟨_, by rw [read_ok ((hm _ fun ho => haG _ ho g2).trans g1), Res.ok_bind, read_ok ((hm _ fun ho => haN _ ho n2).trans n1)]; rfl, fun i hi m'' hm'' hv hw => ?_⟩
  obtain ⟨⟨b1, b2⟩, b3, b4⟩ := hX.pos2 a1 hi hj
  obtain ⟨_, o1, o2⟩ := hr.pos2 a1 hi hj
  rw [noRow_app]
  exact step_inc _ _ (fun v => v * ((U (ia ++ [j])).re / (n (ia ++ [j])).re)) hv hw ((hm'' _ fun ho => haX _ ho b3).trans b1) ((hm'' _ fun ho => haX _ ho b4).trans b2)
    (by rw [← pos_last2 a1.length]; exact hr.apart _ _ (position_lt (GT.inRange_app a1 (.cons hi (.cons hj .nil)))) (position_lt (GT.inRange_app a1 (.cons hi (.cons hj .nil)))))
    (fun e => haX _ o1 (e ▸ b4)) rfl rfl

/-- Dividing by a number without imaginary part. -/
theorem cdiv_real [Field α] (a : Cx α) (n : α) : cdiv a ⟨n, 0⟩ = ⟨a.re / n, a.im / n⟩ := by
  by_cases h : n = 0
  · subst h; simp [cdiv]
  · simp only [cdiv, mul_zero, add_zero, sub_zero, Cx.mk.injEq]
    exact ⟨mul_div_mul_right _ _ h, mul_div_mul_right _ _ h⟩

/-- `add_divide_cols_back0`: the same sums as `add_divide_cols`. -/
theorem C504_addDivideColsBack0 [Field α] {r G N : CA} {A : List Nat} {I J : Nat} {F U n : List Nat → Cx α} {m : Buf α} (hr : r.Is (A ++ [I, J]) F m)
    (hG : G.Is (A ++ [I, J]) U m) (hN : N.Is (A ++ [J]) n m) (h0 : I * J ≠ 0) (haG : r.Apart G) (haN : r.Apart N) :
    ∃ m', r.addDivideColsBack0 G N m = .ok m' ∧
      r.Becomes (A ++ [I, J]) (fun ix => ⟨(F ix).re + (U ix).re / (n (noRow ix)).re, (F ix).im + (U ix).im / (n (noRow ix)).re⟩) m m' := by
  rw [addDivideColsBack0, decide_eq_true (by rw [hr.dims]; simp), Res.assrt_true, Res.ok_bind,
    lastTwo, lastTwo_ok hr.re h0, Res.ok_bind]
  simp only
  rw [decide_eq_true (cols_size hr hN h0), Res.assrt_true, Res.ok_bind, decide_eq_true (by rw [hr.asize, hG.asize]), Res.assrt_true, Res.ok_bind]
  refine ccols_core hr _ _ fun ia a1 j hj m' hm => ?_
  obtain ⟨⟨n1, _⟩, n2, _⟩ := hN.pos1 a1 hj
  refine ⟨_, by rw [read_ok ((hm _ fun ho => haN _ ho n2).trans n1), Res.ok_bind], fun i hi m'' hm'' hv hw => ?_⟩
  obtain ⟨⟨b1, b2⟩, b3, b4⟩ := hG.pos2 a1 hi hj
  rw [noRow_app, getC_ok ((hm'' _ fun ho => haG _ ho b3).trans b1) ((hm'' _ fun ho => haG _ ho b4).trans b2), Res.ok_bind, incC_ok hv hw
    (by rw [← pos_last2 a1.length]; exact hr.apart _ _ (position_lt (GT.inRange_app a1 (.cons hi (.cons hj .nil)))) (position_lt (GT.inRange_app a1 (.cons hi (.cons hj .nil))))), cdiv_real]
  rfl

/-- Repeated increments of one complex number. -/
theorem cinc_run [AddCommMonoid α] {n p q : Nat} (hpq : p ≠ q) {step : Nat → Buf α → Res (Buf α)} {v : Nat → Cx α} {m : Buf α} {a : Cx α} (hp : m p = some a.re) (hq : m q = some a.im)
    (hs : ∀ i, i < n → ∀ m' : Buf α, (∀ c, c ≠ p → c ≠ q → m' c = m c) → step i m' = incC p q (v i) m') :
    loop n m step = setC p q (a + ((List.range n).map v).sum) m := by
  have fin : ∀ b : Cx α, setC p q b m = .ok fun c => if c = p then some b.re else if c = q then some b.im else m c := fun b =>
    setC_ok (by rw [hp]; rfl) (by rw [hq]; rfl) hpq b
  induction n with
  | zero =>
    rw [fin]
    show Res.ok m = _
    congr 1; funext c
    by_cases h1 : c = p
    · simp [h1, hp]
    · by_cases h2 : c = q
      · simp [h2, hq, hpq.symm]
      · simp [h1, h2]
  | succ n ih =>
    rw [RA.loop_snoc, ih fun i hi => hs i (by omega), fin, Res.ok_bind, hs n (by omega) _ (fun c h1 h2 => by simp [h1, h2]),
      incC_ok (a := a + ((List.range n).map v).sum) (by simp) (by simp [hpq.symm]) hpq, setC_ok (by simp) (by simp [hpq.symm]) hpq, fin]
    congr 1; funext c
    rw [List.range_succ, List.map_append, List.sum_append, ← add_assoc]
    by_cases h1 : c = p
    · simp [h1]
    · by_cases h2 : c = q <;> simp [h1, h2]

/-- `add_divide_cols_back1`: to each number the sum over its column of `G` times the conjugate of `X` is added, divided by minus the square of `N`. -/
theorem C504_addDivideColsBack1 [CommRing α] (sqInv : α → α) {r G X N : CA} {A : List Nat} {I J : Nat} {F U V n : List Nat → Cx α} {m : Buf α} (hr : r.Is (A ++ [J]) F m)
    (hG : G.Is (A ++ [I, J]) U m) (hX : X.Is (A ++ [I, J]) V m) (hN : N.Is (A ++ [J]) n m) (h0 : I * J ≠ 0) (haG : r.Apart G) (haX : r.Apart X) (haN : r.Apart N) :
    ∃ m', r.addDivideColsBack1 sqInv G X N m = .ok m' ∧ r.Becomes (A ++ [J])
      (fun ix => F ix + ((List.range I).map fun i => U (ix.insertIdx A.length i) * ⟨(V (ix.insertIdx A.length i)).re, -(V (ix.insertIdx A.length i)).im⟩ *
        (⟨-sqInv (n ix).re, 0⟩ : Cx α)).sum) m m' := by
  rw [addDivideColsBack1, decide_eq_true (by rw [hG.dims]; simp), Res.assrt_true, Res.ok_bind, decide_eq_true (by rw [hG.dims, hX.dims]), Res.assrt_true, Res.ok_bind,
    decide_eq_true (by rw [hr.dims, hN.dims]), Res.assrt_true, Res.ok_bind, lastTwo, lastTwo_ok hG.re h0, Res.ok_bind]
  simp only
  rw [decide_eq_true (cols_size hG hN h0), Res.assrt_true, Res.ok_bind, decide_eq_true (by rw [hr.asize, hN.asize]), Res.assrt_true, Res.ok_bind]
  have := cpair hr (fun ix => F ix + ((List.range I).map fun i => U (ix.insertIdx A.length i) * ⟨(V (ix.insertIdx A.length i)).re, -(V (ix.insertIdx A.length i)).im⟩ *
        (⟨-sqInv (n ix).re, 0⟩ : Cx α)).sum)
    (fun a j m => do
      let n ← m.read (N.arr + (a * J + j))
      loop I m fun i m => do
        let g ← getC (G.arr + (a * I * J + i * J + j)) (G.arrc + (a * I * J + i * J + j)) m
        let x ← getC (X.arr + (a * I * J + i * J + j)) (X.arrc + (a * I * J + i * J + j)) m
        incC (r.arr + (a * J + j)) (r.arrc + (a * J + j)) ⟨(g * ⟨x.re, -x.im⟩).re * -sqInv n, (g * ⟨x.re, -x.im⟩).im * -sqInv n⟩ m) (by
    intro ia a1 ib a2 m' hm hv hw
    obtain ⟨j, l, h1, h2, rfl⟩ := List.forall₂_cons_right_iff.1 a2
    rw [List.forall₂_nil_right_iff] at h2
    subst h2
    have ej : position [J] [j] = j := by simp [position]
    rw [ej] at hv hw ⊢
    simp only [List.prod_singleton] at hv hw ⊢
    obtain ⟨⟨n1, _⟩, n2, _⟩ := hN.pos1 a1 h1
    obtain ⟨_, r1, r2⟩ := hr.pos1 a1 h1
    have ins : ∀ i, (ia ++ [j]).insertIdx A.length i = ia ++ [i, j] := fun i => by rw [← a1.length, RA.insert_axis]
    rw [read_ok ((hm _ fun ho => haN _ ho n2).trans n1), Res.ok_bind]
    have hlt : position A ia * J + j < (A ++ [J]).prod := by rw [List.prod_append, List.prod_singleton]; exact two_lt (position_lt a1) h1
    rw [cinc_run (hr.apart _ _ hlt hlt) (v := fun i => U (ia ++ [i, j]) * ⟨(V (ia ++ [i, j])).re, -(V (ia ++ [i, j])).im⟩ * (⟨-sqInv (n (ia ++ [j])).re, 0⟩ : Cx α)) hv hw
      fun i hi m2 h2 => by
        obtain ⟨⟨b1, b2⟩, b3, b4⟩ := hG.pos2 a1 hi h1
        obtain ⟨⟨d1, d2⟩, d3, d4⟩ := hX.pos2 a1 hi h1
        have off : ∀ (y : CA), r.Apart y → ∀ c, y.Owns c → m2 c = m c := fun y hy c hc => by
          rw [h2 c (fun e => hy _ r1 (e ▸ hc)) (fun e => hy _ r2 (e ▸ hc)), hm c fun ho => hy c ho hc]
        rw [getC_ok ((off G haG _ b3).trans b1) ((off G haG _ b4).trans b2), Res.ok_bind, getC_ok ((off X haX _ d3).trans d1) ((off X haX _ d4).trans d2), Res.ok_bind]
        congr 1
        ext
        · show _ = _ * _ - _ * (0 : α); rw [mul_zero, sub_zero]
        · show _ = _ * (0 : α) + _ * _; rw [mul_zero, zero_add]]
    congr 2
    refine congrArg List.sum (List.map_congr_left fun i _ => ?_)
    rw [ins])
  simpa only [List.prod_singleton] using this

example : ∃ m', CA.addColNorms (α := Int) (fun t => t) ⟨0, 32, [2], [1], 2, 64, 32, -1, false⟩ ⟨64, 96, [2, 2], [2, 1], 4, 64, 32, -1, false⟩
    (fun c => if c < 2 then some (100 : Int) else if 64 ≤ c ∧ c < 68 then some (c - 63 : Int) else if 96 ≤ c ∧ c < 100 then some 1 else none) = .ok m' ∧ m' 0 = some 112 ∧
      m' 1 = some 122 := ⟨_, rfl, rfl, rfl⟩

/-! ### C505, C508: dividing and normalizing columns -/

/-- `divide_cols(N)`: a new tensor with each column divided by the real part of its number. -/
theorem C505_divideCols [Zero α] [Div α] {x N : CA} {A : List Nat} {I J : Nat} {G n : List Nat → Cx α} {m : Buf α} (hx : x.Is (A ++ [I, J]) G m)
    (hN : N.Is (A ++ [J]) n m) (h0 : I * J ≠ 0) (junk : Nat → α) (q : Nat) (hf : Free m q (2 * cells (A ++ [I, J]))) :
    ∃ y m', divideCols junk q x N m = .ok (y, m') ∧ y.Fresh q (A ++ [I, J]) (fun ix => ⟨(G ix).re / (n (noRow ix)).re, (G ix).im / (n (noRow ix)).re⟩) m m' := by
  obtain ⟨y, m1, e1, e2, e3, e4, e5⟩ := C476_zero (α := α) (D := A ++ [I, J]) (by simp) junk q m
  have hy0 : y = mk0 q (A ++ [I, J]) := by
    have e := e1
    rw [zero, raw_ok (by simp), Res.ok_bind] at e
    obtain ⟨_, _, e⟩ := Res.bind_eq_ok.1 e
    cases e; rfl
  have hy : ∀ c, y.Owns c → q ≤ c ∧ c < q + 2 * cells (A ++ [I, J]) := fun c hc => owns_mk0 (hy0 ▸ hc)
  obtain ⟨m', h1, h2⟩ := ccols_core e4 (fun ix => ⟨(G ix).re / (n (noRow ix)).re, (G ix).im / (n (noRow ix)).re⟩) (fun a j m => do
      let z ← m.read (N.arr + (a * J + j))
      loop I m fun i m => do
        let v ← m.read (x.arr + (a * I * J + i * J + j))
        let m ← m.write (y.arr + (a * I * J + i * J + j)) (v / z)
        let w ← m.read (x.arrc + (a * I * J + i * J + j))
        m.write (y.arrc + (a * I * J + i * J + j)) (w / z)) (by
    intro ia a1 j hj m' hm
    obtain ⟨⟨n1, _⟩, n2, _⟩ := hN.pos1 a1 hj
    refine ⟨_, by rw [read_ok ((hm _ fun ho => hN.not_free hf n2 (hy _ ho)).trans ((e5 _ (hN.not_free hf n2)).trans n1)), Res.ok_bind], fun i hi m'' hm'' hv hw => ?_⟩
    obtain ⟨⟨b1, b2⟩, b3, b4⟩ := hx.pos2 a1 hi hj
    obtain ⟨_, o1, _⟩ := e4.pos2 a1 hi hj
    have q1 := (hm'' _ fun ho => hx.not_free hf b3 (hy _ ho)).trans ((e5 _ (hx.not_free hf b3)).trans b1)
    have q2 := (hm'' _ fun ho => hx.not_free hf b4 (hy _ ho)).trans ((e5 _ (hx.not_free hf b4)).trans b2)
    rw [noRow_app, read_ok q1, Res.ok_bind, setC, write_ok hv, Res.ok_bind, Res.ok_bind]
    rw [read_ok (a := (G (ia ++ [i, j])).im) (by rw [if_neg fun e : x.arrc + (position A ia * I * J + i * J + j) = y.arr + (position A ia * I * J + i * J + j) => hx.not_free hf b4 (hy _ (e ▸ o1))]; exact q2), Res.ok_bind])
  refine ⟨y, m', ?_, e2, e3, h2.1, fun c hc => ?_⟩
  · rw [divideCols, lastTwo, lastTwo_ok hx.re h0, Res.ok_bind]
    simp only
    rw [decide_eq_true (cols_size hx hN h0), Res.assrt_true, Res.ok_bind, hx.dims, e1, Res.ok_bind]
    simp only
    rw [h1, Res.ok_bind]
  · rw [h2.2 c fun ho => hc (hy c ho), e5 c hc]

/-- `normalize_cols()` divides each row by its norm.  Missing: columns. -/
theorem C508_normalizeCols_partial [NonUnitalNonAssocSemiring α] [Div α] (sq : α → α) {x : CA} {A : List Nat} {J : Nat} {G : List Nat → Cx α} {m : Buf α}
    (hx : x.Is (A ++ [J]) G m) (hm : 2 * x.cst ≤ x.memsize) (h0 : J ≠ 0) (junk : Nat → α) (q : Nat) (hf : Free m q x.memsize) :
    ∃ y m', normalizeCols sq junk q x m = .ok (y, m') ∧ y.arr = q ∧
      y.Is (A ++ [J]) (fun ix =>
        ⟨(G ix).re / sq (((List.range J).map fun j => (G (ix.dropLast ++ [j])).re * (G (ix.dropLast ++ [j])).re).sum +
          ((List.range J).map fun j => (G (ix.dropLast ++ [j])).im * (G (ix.dropLast ++ [j])).im).sum),
        (G ix).im / sq (((List.range J).map fun j => (G (ix.dropLast ++ [j])).re * (G (ix.dropLast ++ [j])).re).sum +
          ((List.range J).map fun j => (G (ix.dropLast ++ [j])).im * (G (ix.dropLast ++ [j])).im).sum)⟩) m' ∧
      ∀ c, ¬ (q ≤ c ∧ c < q + x.memsize) → m' c = m c := by
  obtain ⟨y, m1, e1, e2, e3, e4, _, _, e6⟩ := C484_copy hx hm junk q hf
  have hJ : 0 < J := Nat.pos_of_ne_zero h0
  have hcst : y.arrc = q + x.cst := by
    rw [copy] at e1
    obtain ⟨_, _, e1⟩ := Res.bind_eq_ok.1 e1
    obtain ⟨_, _, e1⟩ := Res.bind_eq_ok.1 e1
    cases e1; rfl
  have hy : ∀ c, y.Owns c → q ≤ c ∧ c < q + x.memsize := fun c hc => by
    have h3 := hx.room
    rcases hc with ⟨h1, h2⟩ | ⟨h1, h2⟩ <;> rw [e4.asize] at h2 <;> omega
  have hpos : ∀ (ia : List Nat) (j : Nat), InRange ia A → position (A ++ [J]) (ia ++ [j]) = position A ia * J + j := fun ia j h => by rw [GT.position_app h.length]; simp [position]
  have hsplit : ∀ ix, InRange ix (A ++ [J]) → ∃ ia j, ix = ia ++ [j] ∧ InRange ia A ∧ j < J := fun ix hi => by
    obtain ⟨ia, k, ib, rfl, h1, h2, h3, _⟩ := RA.range_axis (B := []) hi
    have : ib = [] := List.forall₂_nil_right_iff.1 h3
    subst this
    exact ⟨ia, k, rfl, h1, h2⟩
  let Z : List Nat → α := fun ia => sq (((List.range J).map fun j => (G (ia ++ [j])).re * (G (ia ++ [j])).re).sum + ((List.range J).map fun j => (G (ia ++ [j])).im * (G (ia ++ [j])).im).sum)
  obtain ⟨m', h1, h2⟩ := cblocks_core e4 (List.range A.prod) List.nodup_range (fun a ix => ∃ ia j, InRange ia A ∧ j < J ∧ ix = ia ++ [j] ∧ position A ia = a)
    (by
      intro ix hi
      obtain ⟨ia, j, rfl, a1, a2⟩ := hsplit ix hi
      exact ⟨_, List.mem_range.2 (position_lt a1), ia, j, a1, a2, rfl, rfl⟩)
    (by
      rintro a b ix ⟨ia, j, a1, _, rfl, rfl⟩ ⟨ib, k, b1, _, e, rfl⟩
      rw [(List.append_inj e (by rw [a1.length, b1.length])).1])
    (fun ix => ⟨(G ix).re / Z ix.dropLast, (G ix).im / Z ix.dropLast⟩)
    (fun m i => do
      let t ← loop J ((0, 0) : α × α) fun j t => do
        let v ← m.read (y.arr + (i * J + j))
        let w ← m.read (y.arrc + (i * J + j))
        .ok (t.1 + v * v, t.2 + w * w)
      loop J m fun j m => do
        let v ← m.read (y.arr + (i * J + j))
        let m ← m.write (y.arr + (i * J + j)) (v / sq (t.1 + t.2))
        let w ← m.read (y.arrc + (i * J + j))
        m.write (y.arrc + (i * J + j)) (w / sq (t.1 + t.2)))
    (by
      intro a ha m' hm hv
      obtain ⟨ia, a1, rfl⟩ := GT.surj (List.mem_range.1 ha)
      have rg : ∀ j, j < J → InRange (ia ++ [j]) (A ++ [J]) := fun j hj => GT.inRange_app a1 (.cons hj .nil)
      have hv' : ∀ j, j < J → m' (y.arr + (position A ia * J + j)) = some (G (ia ++ [j])).re ∧ m' (y.arrc + (position A ia * J + j)) = some (G (ia ++ [j])).im := fun j hj => by
        rw [← hpos ia j a1]; exact hv _ (rg j hj) ⟨ia, j, a1, hj, rfl, rfl⟩
      have ap : ∀ i k, i < J → k < J → y.arr + (position A ia * J + i) ≠ y.arrc + (position A ia * J + k) := fun i k hi hk => by
        rw [← hpos ia i a1, ← hpos ia k a1]; exact e4.apart _ _ (position_lt (rg i hi)) (position_lt (rg k hk))
      rw [loop_sum J (0, 0) _ (fun j => ((G (ia ++ [j])).re * (G (ia ++ [j])).re, (G (ia ++ [j])).im * (G (ia ++ [j])).im)) fun j hj t => by
        rw [read_ok (hv' j hj).1, Res.ok_bind, read_ok (hv' j hj).2, Res.ok_bind]; rfl, Res.ok_bind]
      have eZ : sq (((0, 0) + ((List.range J).map fun j => ((G (ia ++ [j])).re * (G (ia ++ [j])).re, (G (ia ++ [j])).im * (G (ia ++ [j])).im)).sum : α × α).1 +
          ((0, 0) + ((List.range J).map fun j => ((G (ia ++ [j])).re * (G (ia ++ [j])).re, (G (ia ++ [j])).im * (G (ia ++ [j])).im)).sum : α × α).2) = Z ia := by
        have : ∀ (l : List Nat) (f g : Nat → α), (l.map fun j => (f j, g j)).sum = ((l.map f).sum, (l.map g).sum) := fun l f g => by
          induction l with
          | nil => rfl
          | cons a l ih => simp [ih]
        rw [this]
        simp [Z]
      rw [eZ]
      obtain ⟨m'', g1, g2, g3⟩ := ccells_run (List.range J) (fun j => y.arr + (position A ia * J + j)) (fun j => y.arrc + (position A ia * J + j))
        (fun j => ⟨(G (ia ++ [j])).re / Z ia, (G (ia ++ [j])).im / Z ia⟩) (fun m j => do
          let v ← m.read (y.arr + (position A ia * J + j))
          let m ← m.write (y.arr + (position A ia * J + j)) (v / Z ia)
          let w ← m.read (y.arrc + (position A ia * J + j))
          m.write (y.arrc + (position A ia * J + j)) (w / Z ia)) m' List.nodup_range (fun i _ k _ e => by omega) (fun i _ k _ e => by omega)
        (fun i hi k hk => ap i k (List.mem_range.1 hi) (List.mem_range.1 hk))
        (fun i hi => by rw [(hv' i (List.mem_range.1 hi)).1, (hv' i (List.mem_range.1 hi)).2]; exact ⟨rfl, rfl⟩)
        (fun j hj m'' hm'' => by
          have hj := List.mem_range.1 hj
          have q1 : m'' (y.arr + (position A ia * J + j)) = some (G (ia ++ [j])).re := by
            rw [hm'' _ fun k hk hne => ⟨fun e => hne (by omega), ap j k hj (List.mem_range.1 hk)⟩, (hv' j hj).1]
          have q2 : m'' (y.arrc + (position A ia * J + j)) = some (G (ia ++ [j])).im := by
            rw [hm'' _ fun k hk hne => ⟨(ap k j (List.mem_range.1 hk) hj).symm, fun e => hne (by omega)⟩, (hv' j hj).2]
          rw [read_ok q1, Res.ok_bind, setC, write_ok q1, Res.ok_bind, Res.ok_bind, read_ok (a := (G (ia ++ [j])).im) (by rw [if_neg (ap j j hj hj).symm]; exact q2), Res.ok_bind])
      refine ⟨m'', g1, ?_, fun c hc => g3 c fun j hj => ?_⟩
      · rintro ix _ ⟨ia', j, k1, k2, rfl, k4⟩
        have : ia' = ia := by rw [← nth_pos k1, k4, nth_pos a1]
        subst this
        rw [hpos _ _ k1, List.dropLast_concat]; exact g2 j (List.mem_range.2 k2)
      · rw [← hpos ia j a1]; exact hc _ (rg j (List.mem_range.1 hj)) ⟨ia, j, a1, List.mem_range.1 hj, rfl, rfl⟩)
  refine ⟨y, m', ?_, e2, h2.1, fun c hc => by rw [h2.2 c fun ho => hc (hy c ho), e6 c hc]⟩
  have hl : x.dims.length = A.length + 1 := by rw [hx.dims]; simp
  rw [normalizeCols, get_at (v := J) (by rw [hl, hx.dims]; simp), Res.ok_bind, show Res.need (decide (J ≠ 0)) = .ok () by rw [decide_eq_true h0]; rfl, Res.ok_bind, e1, Res.ok_bind]
  simp only
  rw [show x.asize / J = A.prod by rw [hx.asize]; simp only [List.prod_append, List.prod_singleton]; exact Nat.mul_div_cancel _ hJ, loop, h1, Res.ok_bind]

/-- The one column of `[[3], [4]]` has the norm 5 (here squared: 25); both entries are divided by their own norms, here 9 and 16. -/
theorem C508_normalizeCols_fails : ∃ y m', normalizeCols (fun t : ℚ => t) (fun _ => 9) 64 ⟨0, 32, [2, 1], [1, 1], 2, 64, 32, -1, false⟩
    (fun c => if c = 0 then some 3 else if c = 1 then some 4 else if c < 64 then some 0 else none) = .ok (y, m') ∧ m' 64 = some (3 / 9) ∧ m' 65 = some (4 / 16) ∧
      (3 / 9 : ℚ) ≠ 3 / 25 := by
  refine ⟨_, _, rfl, ?_, ?_, by norm_num⟩
  · decide +kernel
  · decide +kernel

/-- Columns divided by their norms, as `add_col_norms` finds them, have norm 1. -/
theorem C505_unit [Field α] (sq : α → α) {x N : CA} {A : List Nat} {I J : Nat} {G n : List Nat → Cx α} {m : Buf α} (hx : x.Is (A ++ [I, J]) G m) (hN : N.Is (A ++ [J]) n m)
    (h0 : I * J ≠ 0) (junk : Nat → α) (q : Nat) (hf : Free m q (2 * cells (A ++ [I, J]))) (ia : List Nat) (j : Nat)
    (t : α) (ht : t = ((List.range I).map fun i => (G (ia ++ [i, j])).re * (G (ia ++ [i, j])).re + (G (ia ++ [i, j])).im * (G (ia ++ [i, j])).im).sum)
    (hn : (n (ia ++ [j])).re = sq t) (hs : sq t * sq t = t) (hne : (n (ia ++ [j])).re ≠ 0) :
    ∃ y m' H, divideCols junk q x N m = .ok (y, m') ∧ y.Fresh q (A ++ [I, J]) H m m' ∧
      ((List.range I).map fun i => (H (ia ++ [i, j])).re * (H (ia ++ [i, j])).re + (H (ia ++ [i, j])).im * (H (ia ++ [i, j])).im).sum = 1 := by
  obtain ⟨y, m', e1, e2⟩ := C505_divideCols hx hN h0 junk q hf
  refine ⟨y, m', _, e1, e2, ?_⟩
  simp only [noRow_app]
  have : ∀ l : List Nat, (l.map fun i => (G (ia ++ [i, j])).re / (n (ia ++ [j])).re * ((G (ia ++ [i, j])).re / (n (ia ++ [j])).re) +
      (G (ia ++ [i, j])).im / (n (ia ++ [j])).re * ((G (ia ++ [i, j])).im / (n (ia ++ [j])).re)).sum =
      (l.map fun i => (G (ia ++ [i, j])).re * (G (ia ++ [i, j])).re + (G (ia ++ [i, j])).im * (G (ia ++ [i, j])).im).sum / ((n (ia ++ [j])).re * (n (ia ++ [j])).re) := fun l => by
    induction l with
    | nil => simp
    | cons a l ih => rw [List.map_cons, List.sum_cons, ih, List.map_cons, List.sum_cons, div_mul_div_comm, div_mul_div_comm, ← add_div, ← add_div]
  rw [this]
  have e : ((List.range I).map fun i => (G (ia ++ [i, j])).re * (G (ia ++ [i, j])).re + (G (ia ++ [i, j])).im * (G (ia ++ [i, j])).im).sum = (n (ia ++ [j])).re * (n (ia ++ [j])).re := by
    rw [hn, hs, ht]
  rw [e, div_self (mul_ne_zero hne hne)]

example : ∃ y m', divideCols (fun _ => (9 : Int)) 128 ⟨0, 32, [2, 1], [1, 1], 2, 64, 32, -1, false⟩ ⟨64, 96, [1], [1], 1, 64, 32, -1, false⟩
    (fun c => if c = 0 then some 6 else if c = 1 then some 8 else if c = 64 then some 2 else if c < 128 then some 4 else none) = .ok (y, m') ∧ y.get [0, 0] m' = .ok ⟨3, 2⟩ ∧
      y.get [1, 0] m' = .ok ⟨4, 2⟩ := ⟨_, _, rfl, rfl, rfl⟩

end CA

end Cnine
