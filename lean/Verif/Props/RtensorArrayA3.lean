import Verif.Props.RtensorArrayA2

/-!
# Arrays of tensors of the old backend: shapes, sums, products
-/

namespace Cnine

variable {α : Type}

open RA

namespace RAA

theorem Is.not_free {X : RAA} {A D : List Nat} {f : List Nat → List Nat → α} {m : Buf α} (h : X.Is A D f m) {q n : Nat} (hf : Free m q n) {c : Nat} (ho : X.Owns c) :
    ¬ (q ≤ c ∧ c < q + n) := by
  rintro ⟨a, b⟩
  obtain ⟨o1, o2⟩ := ho
  rw [h.total] at o2
  have := h.pad (c - X.base.arr) (by omega)
  rw [show X.base.arr + (c - X.base.arr) = c by omega, hf c a b] at this
  exact absurd this (by simp)

/-! ### C521: one tensor for all -/

/-- `broadcast_copy(x)`: every tensor becomes `x`. -/
theorem C521_broadcastCopy {X : RAA} {A D : List Nat} {f : List Nat → List Nat → α} {m : Buf α} (h : X.Is A D f m) {x : RA} {g : List Nat → α} (hx : x.Is D g m)
    (ha : ∀ c, X.Owns c → ¬ x.Owns c) : ∃ m', X.broadcastCopy x m = .ok m' ∧ X.Becomes A D (fun _ => g) m m' := by
  rw [broadcastCopy, decide_eq_true (by rw [hx.dims, h.cdims]), Res.assrt_true, Res.ok_bind, h.aasize]
  apply cells_core h
  intro ia hi m' hc hm
  obtain ⟨m'', w, e1, e2, e3⟩ := copy_cell h hx rfl hi ha m' hc hm
  exact ⟨m'', by rw [hx.asize, h.cellstride, e1], RA.becomes_congr e2 fun id hd => e3 id id hd hd rfl⟩

/-- `broadcast_add(x)`, `broadcast_subtract(x)`. -/
theorem C521_broadcastUpd (op : α → α → α) {X : RAA} {A D : List Nat} {f : List Nat → List Nat → α} {m : Buf α} (h : X.Is A D f m) {x : RA} {g : List Nat → α} (hx : x.Is D g m)
    (hn : X.nbu = x.nbu) (ha : ∀ c, X.Owns c → ¬ x.Owns c) : ∃ m', X.broadcastUpd op x m = .ok m' ∧ X.Becomes A D (fun ia id => op (f ia id) (g id)) m m' := by
  rw [broadcastUpd, decide_eq_true hn, Res.assrt_true, Res.ok_bind, h.aasize]
  apply cells_core h
  intro ia hi m' hc hm
  have hx' : x.Is D g m' := hx.keep fun c ho => hm c fun o => ha c o ho
  obtain ⟨m'', h1, h2⟩ := zip_same op hc hx' (.inl fun c o o' => ha c (h.cellOwns (position_lt hi) o) o')
  refine ⟨m'', ?_, h2⟩
  rw [RA.zipT, decide_eq_true (by rw [hc.asize, hx'.asize]), Res.assrt_true, Res.ok_bind] at h1
  rw [← h1, hx.asize, ← h.asize]
  rfl

/-- `plus(y)`: the sums, in a new array. -/
theorem C521_plus [Add α] {X y : RAA} {A D : List Nat} {f g : List Nat → List Nat → α} {m : Buf α} (h : X.Is A D f m) (hy : y.Is A D g m) (junk : Nat → α) (q : Nat)
    (hf : Free m q (max X.base.memsize 1)) :
    ∃ Y m', plus junk q X y m = .ok (Y, m') ∧ Y.base.arr = q ∧ Y.Is A D (fun ia id => f ia id + g ia id) m' ∧
      ∀ c, ¬ (q ≤ c ∧ c < q + max X.base.memsize 1) → m' c = m c := by
  obtain ⟨Y, m1, h1, h2, -, -, h3, -, -, h4⟩ := C520_copy h junk q hf
  have hy1 : y.Is A D g m1 := hy.keep fun c ho => h4 c (hy.not_free hf ho)
  have hin : ∀ c, Y.Owns c → q ≤ c ∧ c < q + max X.base.memsize 1 := by
    rintro c ⟨o1, o2⟩
    rw [h3.total] at o2
    have := h.room
    rw [h2] at o1 o2
    exact ⟨o1, by omega⟩
  obtain ⟨F, f1, f2⟩ := h3.flat
  obtain ⟨G, g1, g2⟩ := hy1.flat
  obtain ⟨m', e1, e2⟩ := C370_add f1 g1 (.inl fun c o o' => hy.not_free hf ((hy1.flatOwns c).1 o') (hin c ((h3.flatOwns c).1 o)))
  have hb := h3.unflat e2
  refine ⟨Y, m', ?_, h2, (becomes_congr hb fun ia id a b => by rw [f2 ia id a b, g2 ia id a b]).1, fun c hc => by rw [hb.2 c fun o => hc (hin c o), h4 c hc]⟩
  rw [plus, h1, Res.ok_bind]
  have : RA.add Y.base y.base m1 = .ok m' := by
    rw [← e1]
    simp only [RA.add, RA.zipT]
    rw [h3.total, hy1.total]
    rfl
  simp only
  rw [this, Res.ok_bind]

/-- `plus(y)`, `minus(y)` with one tensor. -/
theorem C521_plusOne (op : α → α → α) {X : RAA} {y : RA} {A D : List Nat} {f : List Nat → List Nat → α} {g : List Nat → α} {m : Buf α} (h : X.Is A D f m) (hy : y.Is D g m)
    (hn : X.nbu = y.nbu) (junk : Nat → α) (q : Nat) (hf : Free m q (max X.base.memsize 1)) :
    ∃ Y m', plusOne op junk q X y m = .ok (Y, m') ∧ Y.base.arr = q ∧ Y.Is A D (fun ia id => op (f ia id) (g id)) m' ∧
      ∀ c, ¬ (q ≤ c ∧ c < q + max X.base.memsize 1) → m' c = m c := by
  obtain ⟨Y, m1, h1, h2, -, h5, h3, -, -, h4⟩ := C520_copy h junk q hf
  have hy1 : y.Is D g m1 := hy.keep fun c ho => h4 c (hy.not_free hf ho)
  have hin : ∀ c, Y.Owns c → q ≤ c ∧ c < q + max X.base.memsize 1 := by
    rintro c ⟨o1, o2⟩
    rw [h3.total] at o2
    have := h.room
    rw [h2] at o1 o2
    exact ⟨o1, by omega⟩
  obtain ⟨m', e1, e2⟩ := C521_broadcastUpd op h3 hy1 (h5.trans hn) fun c o o' => hy.not_free hf o' (hin c o)
  refine ⟨Y, m', ?_, h2, e2.1, fun c hc => by rw [e2.2 c fun o => hc (hin c o), h4 c hc]⟩
  rw [plusOne, h1, Res.ok_bind]
  simp only
  rw [e1, Res.ok_bind]

example : ∃ m', ex.broadcastUpd (· - ·) ⟨200, [3], [1], 3, 32, 32, -1, false⟩ (fun c => if c < 128 then some (c : Int) else if c < 232 then some 5 else none) = .ok m' ∧
    m' 0 = some (-5) ∧ m' 98 = some 93 ∧ m' 99 = some 99 := ⟨_, rfl, rfl, rfl, rfl⟩

/-! ### C522: copies and views forget `k` -/

/-- In a copy or a view no tensor can be looked at. -/
theorem C522_fails {X : RAA} (junk : Nat → α) (q : Nat) {Y : RAA} {m m' : Buf α} (h : copy junk q X m = .ok (Y, m') ∨ Y = X.viewOf) (i a b : Nat) :
    Y.cell i = .ub ∧ Y.cellCombinedSize a b = .ub := by
  have : Y.k = none := by
    rcases h with h | h
    · rw [copy] at h
      simp only [Res.bind_eq_ok] at h
      obtain ⟨p, _, e⟩ := h
      cases e
      rfl
    · rw [h]; rfl
  unfold cell cellCombinedSize
  rw [this]
  exact ⟨rfl, rfl⟩

/-- `as_arrayshape` never succeeds. -/
theorem C522_asArrayshape_fails (X : RAA) (E : List Nat) : X.asArrayshape E = if Cnine.asize E = X.aasize then .ub else .throw := by
  rw [asArrayshape, changeArrayshape]
  by_cases h : Cnine.asize E = X.aasize
  · rw [decide_eq_true (show Cnine.asize E = X.viewOf.aasize from h), if_pos h]; rfl
  · rw [decide_eq_false (show ¬ Cnine.asize E = X.viewOf.aasize from h), if_neg h]; rfl

example : (match copy (fun _ => 9) 200 ex (fun c => if c < 128 then some (c : Int) else none) with
    | .ok (Y, m') => (Y.base.dims == [2, 2, 3] && m' 298 == some 98)
    | _ => false) = true := by decide +kernel

/-! ### C523: another shape for the array -/

theorem low_ok (L pre : List Nat) (n : Nat) (hn : n ≤ L.length) :
    (Res.forM (List.range n) ([] : List Nat) fun l i => do
      let s ← Res.get (pre ++ L) (pre.length + i)
      .ok (l ++ [s])) = .ok (L.take n) := by
  induction n with
  | zero => rfl
  | succ n ih =>
    have e : (pre ++ L)[pre.length + n]? = some L[n] := by
      rw [List.getElem?_append_right (by omega), Nat.add_sub_cancel_left, List.getElem?_eq_getElem (by omega)]
    rw [List.range_succ, Res.forM_append, ih (by omega), Res.ok_bind, Res.forM_cons]
    simp only [Res.get, e, Res.ok_bind, Res.forM_nil]
    rw [List.take_succ_eq_append_getElem (by omega)]

theorem shape_eq {X : RAA} {A D : List Nat} {f : List Nat → List Nat → α} {m : Buf α} (h : X.Is A D f m) (hk : X.k = some D.length) {E : List Nat} (he : E.prod = A.prod)
    (hl : E.length ≤ D.length) :
    X.changeArrayshape E = .ok { X with
      adims := E, astrides := rmStrides E
      base := { X.base with dims := E ++ D, strides := (rmStrides E).map (· * cells D) ++ (D.tails.tail.map List.prod).take E.length ++ List.replicate (D.length - E.length) 0 } } := by
  have hA : X.adims.length = (A.tails.tail.map fun l => l.prod * cells D).length := by rw [h.adims]; simp
  rw [changeArrayshape, decide_eq_true (by rw [asize_eq, he, h.aasize]), Res.assrt_true, Res.ok_bind, hk]
  simp only
  rw [decide_eq_true hl, show Res.need true = .ok () from rfl, Res.ok_bind, h.strides, hA, low_ok _ _ _ (by simp; omega), Res.ok_bind, h.cellstride, h.cdims]

/-- With as many axes as the tensors have, the tensors are taken in order. -/
theorem C523_changeArrayshape_partial {X : RAA} {A D : List Nat} {f : List Nat → List Nat → α} {m : Buf α} (h : X.Is A D f m) (hk : X.k = some D.length) {E : List Nat}
    (he : E.prod = A.prod) (hl : E.length = D.length) :
    ∃ Y g, X.changeArrayshape E = .ok Y ∧ Y.base.arr = X.base.arr ∧ Y.Is E D g m ∧ ∀ ia ie, InRange ia A → InRange ie E → position A ia = position E ie → g ie = f ia := by
  have hE : E ≠ [] := fun e => h.neD (List.length_eq_zero_iff.1 (by rw [← hl, e]; rfl))
  have pos : ∀ ie, InRange ie E → InRange (nth A (position E ie)) A ∧ position A (nth A (position E ie)) = position E ie := fun ie hi =>
    nth_range (by rw [← he]; exact position_lt hi)
  refine ⟨_, fun ie => f (nth A (position E ie)), shape_eq h hk he hl.le, rfl, ?_, fun ia ie a b e => ?_⟩
  · refine { h with
      neA := hE, dims := rfl, strides := ?_, total := by rw [he]; exact h.total, cst := fun n => by rw [he]; exact h.cst (he ▸ n), room := by rw [he]; exact h.room
      adims := rfl, astrides := (compact_rm E).symm, aasize := by rw [he]; exact h.aasize, pad := fun c hc => h.pad c (he ▸ hc), has := fun ie id a b => ?_ }
    · show (rmStrides E).map (· * cells D) ++ (D.tails.tail.map List.prod).take E.length ++ List.replicate (D.length - E.length) 0 = _
      rw [hl, Nat.sub_self, List.replicate_zero, List.append_nil, List.take_of_length_le (by simp), ← compact_rm, List.map_map]
      rfl
    · obtain ⟨p1, p2⟩ := pos ie a
      have := h.has _ id p1 b
      rw [p2] at this
      exact this
  · show f _ = _
    rw [← e, nth_pos a]

/-- With more axes than the tensors have, strides outside the vector are read. -/
theorem C523_longer_fails {X : RAA} {A D : List Nat} {f : List Nat → List Nat → α} {m : Buf α} (h : X.Is A D f m) (hk : X.k = some D.length) {E : List Nat} (he : E.prod = A.prod)
    (hl : D.length < E.length) : X.changeArrayshape E = .ub := by
  rw [changeArrayshape, decide_eq_true (by rw [asize_eq, he, h.aasize]), Res.assrt_true, Res.ok_bind, hk]
  simp only
  rw [decide_eq_false (by omega)]
  rfl

/-- With fewer, the last strides are zero. -/
theorem C523_shorter_fails {X : RAA} {A D : List Nat} {f : List Nat → List Nat → α} {m : Buf α} (h : X.Is A D f m) (hk : X.k = some D.length) {E : List Nat} (he : E.prod = A.prod)
    (hl : E.length < D.length) : ∃ Y, X.changeArrayshape E = .ok Y ∧ ∀ g m', ¬ Y.Is E D (g : List Nat → List Nat → α) m' := by
  refine ⟨_, shape_eq h hk he hl.le, fun g m' h' => ?_⟩
  have e : (rmStrides E).map (· * cells D) ++ (D.tails.tail.map List.prod).take E.length ++ List.replicate (D.length - E.length) 0 =
      (E.tails.tail.map fun l => l.prod * cells D) ++ D.tails.tail.map List.prod := h'.strides
  have l1 : (E.tails.tail.map fun l => l.prod * cells D).length = E.length := by simp
  have := congrArg List.getLast? e
  rw [List.getLast?_append, List.getLast?_append, List.getLast?_append] at this
  have e1 : (List.replicate (D.length - E.length) 0).getLast? = some 0 := by
    rw [List.getLast?_replicate, if_neg (by omega)]
  have e2 : (D.tails.tail.map List.prod).getLast? = some 1 := by
    rw [List.getLast?_eq_getElem?, List.getElem?_map, List.getElem?_tail, List.length_map, List.length_tail, List.length_tails, Nat.add_sub_cancel,
      show D.length - 1 + 1 = D.length by omega, List.getElem?_eq_getElem (by simp), List.getElem_tails]
    simp
  rw [e1, e2] at this
  simp at this

example : ∃ Y, (⟨⟨0, [2, 2, 3], [64, 32, 1], 128, 128, 128, -1, false⟩, some 1, -1, [2, 2], [3], [2, 1], [1], 4, 3, 32⟩ : RAA).changeArrayshape [4] = .ok Y ∧ Y.base.dims = [4, 3] ∧
    Y.base.strides = [32, 1] := ⟨_, rfl, rfl, rfl⟩

example : (⟨⟨0, [4, 3], [32, 1], 128, 128, 128, -1, false⟩, some 1, -1, [4], [3], [1], [1], 4, 3, 32⟩ : RAA).changeArrayshape [2, 2] = .ub := rfl

example : ∃ Y, (⟨⟨0, [2, 2, 3, 1], [64, 32, 1, 1], 128, 128, 128, -1, false⟩, some 2, -1, [2, 2], [3, 1], [2, 1], [1, 1], 4, 3, 32⟩ : RAA).changeArrayshape [4] = .ok Y ∧
    Y.base.dims = [4, 3, 1] ∧ Y.base.strides = [32, 1, 0] := ⟨_, rfl, rfl, rfl⟩

/-! ### C524, C525: one number for each tensor -/

theorem scatter_core [Mul α] {X : RAA} {A D : List Nat} {f : List Nat → List Nat → α} {m : Buf α} (h : X.Is A D f m) {k : Nat} (hk : X.k = some k) {C : RA} {g : List Nat → α}
    (hC : C.Is A g m) (ha : ∀ c, X.Owns c → ¬ C.Owns c) :
    ∃ m', X.scatter (fun t c m => t.inplaceTimes c m) C m = .ok m' ∧ X.Becomes A D (fun ia id => f ia id * g ia) m m' := by
  rw [scatter, h.aasize]
  apply cells_core h
  intro ia hi m' hc hm
  have hr : m' (C.arr + position A ia) = some (g ia) := by
    rw [hm _ fun o => ha _ o (hC.owns (position_lt hi)), hC.has ia hi]
  obtain ⟨m'', h1, h2⟩ := C370_times hc (g ia)
  refine ⟨m'', ?_, h2⟩
  rw [cell_eq hk, Res.ok_bind, read_ok hr, Res.ok_bind, h1]

/-- `inplace_scatter_times(C)`. -/
theorem C524_scatterTimes [Mul α] {X : RAA} {A D : List Nat} {f : List Nat → List Nat → α} {m : Buf α} (h : X.Is A D f m) (hk : X.k = some D.length) {C : RA} {g : List Nat → α}
    (hC : C.Is A g m) (ha : ∀ c, X.Owns c → ¬ C.Owns c) : ∃ m', X.inplaceScatterTimes C m = .ok m' ∧ X.Becomes A D (fun ia id => f ia id * g ia) m m' := by
  rw [inplaceScatterTimes, decide_eq_true (by rw [h.adims, hC.dims]), Res.assrt_true, Res.ok_bind]
  exact scatter_core h hk hC ha

/-- `inplace_scatter_div(C)` multiplies. -/
theorem C525_scatterDiv_fails [Mul α] {X : RAA} {A D : List Nat} {f : List Nat → List Nat → α} {m : Buf α} (h : X.Is A D f m) (hk : X.k = some D.length) {C : RA} {g : List Nat → α}
    (hC : C.Is A g m) (ha : ∀ c, X.Owns c → ¬ C.Owns c) : ∃ m', X.inplaceScatterDiv C m = .ok m' ∧ X.Becomes A D (fun ia id => f ia id * g ia) m m' := by
  rw [inplaceScatterDiv, decide_eq_true (by rw [h.adims, hC.dims]), Res.assrt_true, Res.ok_bind]
  exact scatter_core h hk hC ha

/-- `scatter_add_times_c(x,C)` and `scatter_add_div_c(x,C)` throw for arrays with equal sizes. -/
theorem C525_scatterAdd_fails [Add α] [Mul α] (r : α → α) {X x : RAA} {A D : List Nat} {f g : List Nat → List Nat → α} {m : Buf α} (h : X.Is A D f m) (hx : x.Is A D g m) (C : RA) :
    scatterAdd r X x C m = .throw := by
  rw [scatterAdd, decide_eq_false]
  · rfl
  · rw [h.adims, hx.dims]
    intro e
    have := congrArg List.length e
    rw [List.length_append] at this
    exact h.neD (List.length_eq_zero_iff.1 (by omega))

example : ∃ m', ex.inplaceScatterDiv ⟨200, [2, 2], [2, 1], 4, 32, 32, -1, false⟩ (fun c => if c < 128 then some (c : Int) else if c < 232 then some 5 else none) = .ok m' ∧
    m' 64 = some 320 ∧ m' 67 = some 67 := ⟨_, rfl, rfl, rfl⟩

end RAA

end Cnine
