import Verif.Props.RtensorAOps

/-!
# Tensors of the old backend: transposes, products, columns, reductions

C378-C384.
-/

namespace Cnine

variable {α : Type}

open RA

/-! ### C378: combined sizes and transposes -/

theorem drop_prod_ne {l : List Nat} (h : l.prod ≠ 0) (n : Nat) : (l.drop n).prod ≠ 0 := fun e => h (by
  rw [← List.take_append_drop n l, List.prod_append, e, Nat.mul_zero])

/-- The product of the sizes of the axes `a`, …, `b-1`, for tensors with entries. -/
theorem C378_combinedSize {x : RA} {D : List Nat} {f : List Nat → α} {m : Buf α} (h : x.Is D f m) (hD : D.prod ≠ 0) {a b : Nat} (hab : a ≤ b) (hb : b ≤ D.length) :
    x.combinedSize a b = .ok ((D.drop a).take (b - a)).prod := by
  rw [combinedSize, decide_eq_true (by rw [h.dims]; exact hb), Res.assrt_true, Res.ok_bind, decide_eq_true hab, Res.assrt_true, Res.ok_bind]
  split
  · next h0 =>
    rw [h.stride (n := b - 1) (by omega), Res.ok_bind, show b - 1 + 1 = b by omega, if_neg (drop_prod_ne hD b)]
    have hp : 0 < (D.drop b).prod := Nat.pos_of_ne_zero (drop_prod_ne hD b)
    have e : (D.drop a).prod = ((D.drop a).take (b - a)).prod * (D.drop b).prod := by
      conv_lhs => rw [← List.take_append_drop (b - a) (D.drop a)]
      rw [List.prod_append, List.drop_drop, show a + (b - a) = b by omega]
    split
    · next h1 =>
      rw [h.stride (n := a - 1) (by omega), Res.ok_bind, show a - 1 + 1 = a by omega, e, Nat.mul_div_cancel _ hp]
    · next h1 =>
      have : a = 0 := by omega
      subst this
      rw [List.drop_zero] at e
      rw [h.asize, e, List.drop_zero, Nat.mul_div_cancel _ hp]
  · next h0 =>
    have : a = 0 ∧ b = 0 := by omega
    rw [this.1, this.2]; rfl

/-- Ranges of axes that do not exist are refused. -/
theorem C378_combinedSize_refused (x : RA) {a b : Nat} (h : x.dims.length < b ∨ b < a) : x.combinedSize a b = .throw := by
  rw [combinedSize]
  by_cases c : b ≤ x.dims.length
  · rw [decide_eq_true c, Res.assrt_true, Res.ok_bind, decide_eq_false (by omega)]; rfl
  · rw [decide_eq_false c]; rfl

/-- A tensor with no entries: the size of the first axis is 2, and 0 is answered. -/
theorem C379_combinedSize_fails : ∃ x m', raw (fun _ => (9 : Int)) 0 [2, 0] (fun _ => none) = .ok (x, m') ∧ x.combinedSize 0 1 = .ok 0 := ⟨_, _, rfl, rfl⟩

/-- and its transpose divides by zero. -/
theorem C379_transp_fails : ∃ x m', raw (fun _ => (9 : Int)) 0 [2, 0] (fun _ => none) = .ok (x, m') ∧ transp (fun _ => 9) 32 x 1 m' = .ub := ⟨_, _, rfl, rfl⟩

theorem combined_front {x : RA} {A B : List Nat} {f : List Nat → α} {m : Buf α} (h : x.Is (A ++ B) f m) (hD : (A ++ B).prod ≠ 0) :
    x.combinedSize 0 A.length = .ok A.prod := by
  rw [C378_combinedSize h hD (Nat.zero_le _) (by simp), List.drop_zero, Nat.sub_zero, List.take_left]

theorem combined_back {x : RA} {A B : List Nat} {f : List Nat → α} {m : Buf α} (h : x.Is (A ++ B) f m) (hD : (A ++ B).prod ≠ 0) :
    x.combinedSize A.length x.dims.length = .ok B.prod := by
  rw [h.dims, C378_combinedSize h hD (by simp) (Nat.le_refl _), List.drop_left, List.length_append, Nat.add_sub_cancel_left, List.take_length]

theorem in_two {a b : Nat} {ix : List Nat} (h : InRange ix ([a] ++ [b])) : ∃ i j, ix = [i, j] ∧ i < a ∧ j < b := by
  obtain ⟨i, l, h1, h2, rfl⟩ := List.forall₂_cons_right_iff.1 h
  obtain ⟨j, l', h3, h4, rfl⟩ := List.forall₂_cons_right_iff.1 h2
  rw [List.forall₂_nil_right_iff] at h4
  subst h4
  exact ⟨i, j, rfl, h1, h3⟩

/-- The transpose is the matrix whose rows are the axes from `n` on and whose columns are the first `n` axes. -/
theorem C378_transp {x : RA} {A B : List Nat} {f : List Nat → α} {m : Buf α} (hx : x.Is (A ++ B) f m) (hD : (A ++ B).prod ≠ 0) (junk : Nat → α) (q : Nat)
    (hf : Free m q (cells [B.prod, A.prod])) :
    ∃ y m' g, transp junk q x A.length m = .ok (y, m') ∧ y.Fresh q [B.prod, A.prod] g m m' ∧ x.Is (A ++ B) f m' ∧
      ∀ ia ib, InRange ia A → InRange ib B → g [position B ib, position A ia] = f (ia ++ ib) := by
  have hne : [B.prod, A.prod] ≠ [] := by simp
  have hi0 := raw_is hne junk q m
  have hcl := (cells_pos [B.prod, A.prod]).2
  have hA : A.prod ≠ 0 := fun e => hD (by rw [List.prod_append, e, Nat.zero_mul])
  have hI : x.asize / A.prod = B.prod := by rw [hx.asize, List.prod_append, Nat.mul_comm]; exact Nat.mul_div_cancel _ (Nat.pos_of_ne_zero hA)
  have hout : ∀ c, x.Owns c → ¬ (⟨q, [B.prod, A.prod], rmStrides [B.prod, A.prod], [B.prod, A.prod].prod, cells [B.prod, A.prod], cells [B.prod, A.prod], -1, false⟩ : RA).Owns c :=
    fun c hc ho => hx.not_free hf hc ⟨ho.1, by have := ho.2; simp only at this; omega⟩
  obtain ⟨m', h1, h2⟩ := pair_core (A := [B.prod]) (B := [A.prod]) hi0 (fun ix => f (nth A (ix.getD 1 0) ++ nth B (ix.getD 0 0)))
    (fun i j m => copyCell m (q + (i * A.prod + j)) (x.arr + (j * B.prod + i))) (by
    intro ia a1 ib a2 m' hm _
    obtain ⟨i, l, h1, h2, rfl⟩ := List.forall₂_cons_right_iff.1 a1
    rw [List.forall₂_nil_right_iff] at h2
    subst h2
    obtain ⟨j, l, h3, h4, rfl⟩ := List.forall₂_cons_right_iff.1 a2
    rw [List.forall₂_nil_right_iff] at h4
    subst h4
    have hin : j * B.prod + i < (A ++ B).prod := by rw [List.prod_append]; exact two_lt h3 h1
    have ei : position [B.prod] [i] = i := by simp [position]
    have ej : position [A.prod] [j] = j := by simp [position]
    have hcell : m' (x.arr + (j * B.prod + i)) = some (f (nth A j ++ nth B i)) := by
      rw [hm _ (hout _ (hx.owns hin)), raw_off _ _ (hx.not_free hf (hx.owns hin)), pair_at hx h3 h1]
    rw [ei, ej, copyCell, read_ok hcell, Res.ok_bind]
    simp)
  simp only [List.prod_singleton] at h1
  refine ⟨_, m', _, ?_, fresh_of rfl rfl h2, hx.keep fun c hc => ?_, fun ia ib a1 a2 => ?_⟩
  · rw [transp, combined_front hx hD, Res.ok_bind, show Res.need (decide (A.prod ≠ 0)) = .ok () by rw [decide_eq_true hA]; rfl, Res.ok_bind]
    simp only [hI]
    rw [raw_ok hne, Res.ok_bind]
    simp only
    rw [h1, Res.ok_bind]
  · rw [h2.2 c (hout c hc), raw_off _ _ (hx.not_free hf hc)]
  · show f (nth A (position A ia) ++ nth B (position B ib)) = _
    rw [nth_pos a1, nth_pos a2]

/-- Adding a transpose. -/
theorem C378_addTransp [Add α] {r x : RA} {A B : List Nat} {f g : List Nat → α} {m : Buf α} (hr : r.Is (B ++ A) f m) (hx : x.Is (A ++ B) g m) (hD : (A ++ B).prod ≠ 0)
    (ha : r.Apart x) :
    ∃ m', r.addTransp x A.length m = .ok m' ∧ r.Becomes (B ++ A) (fun ix => f ix + g (ix.drop B.length ++ ix.take B.length)) m m' := by
  have hA : A.prod ≠ 0 := fun e => hD (by rw [List.prod_append, e, Nat.zero_mul])
  have hI : x.asize / A.prod = B.prod := by rw [hx.asize, List.prod_append, Nat.mul_comm]; exact Nat.mul_div_cancel _ (Nat.pos_of_ne_zero hA)
  obtain ⟨m', h1, h2⟩ := pair_core hr (fun ix => f ix + g (ix.drop B.length ++ ix.take B.length))
    (fun i j m => updCell (· + ·) m (r.arr + (i * A.prod + j)) (x.arr + (j * B.prod + i))) (by
    intro ib a1 ia a2 m' hm hv
    have hin : position A ia * B.prod + position B ib < (A ++ B).prod := by rw [List.prod_append]; exact two_lt (position_lt a2) (position_lt a1)
    rw [updCell_ok hv (b := g (ia ++ ib)), ← a1.length, List.drop_left, List.take_left]
    rw [hm _ fun ho => ha _ ho (hx.owns hin), pair_at hx (position_lt a2) (position_lt a1), nth_pos a1, nth_pos a2])
  refine ⟨m', ?_, h2⟩
  rw [addTransp, decide_eq_true (by rw [hr.asize, hx.asize]; simp [Nat.mul_comm]), Res.assrt_true, Res.ok_bind, combined_front hx hD, Res.ok_bind,
    show Res.need (decide (A.prod ≠ 0)) = .ok () by rw [decide_eq_true hA]; rfl, Res.ok_bind]
  simp only [hI]
  exact h1

example : ∃ y m', transp (fun _ => (9 : Int)) 6 ⟨0, [2, 3], [3, 1], 6, 32, 32, -1, false⟩ 1 (Buf.ofList [1, 2, 3, 4, 5, 6]) = .ok (y, m') ∧ y.dims = [3, 2] ∧
    ((List.range 6).map fun i => m' (6 + i)) = [1, 4, 2, 5, 3, 6].map (some : Int → Option Int) := ⟨_, _, rfl, rfl, rfl⟩

/-! ### C380: products -/

/-- The loops of a product. -/
theorem prod_core [NonUnitalNonAssocSemiring α] {r : RA} {A B C : List Nat} {f : List Nat → α} {m : Buf α} (hr : r.Is (A ++ B) f m)
    (p q : Nat → Nat → Nat) (P : List Nat → List Nat → α) (Q : List Nat → List Nat → α)
    (hp : ∀ ia ic, InRange ia A → InRange ic C → m (p (position A ia) (position C ic)) = some (P ia ic) ∧ ¬ r.Owns (p (position A ia) (position C ic)))
    (hq : ∀ ic ib, InRange ic C → InRange ib B → m (q (position C ic) (position B ib)) = some (Q ic ib) ∧ ¬ r.Owns (q (position C ic) (position B ib))) :
    ∃ m', mprodLoop r A.prod B.prod C.prod p q m = .ok m' ∧
      r.Becomes (A ++ B) (fun ix => f ix + ((allIndices C).map fun ic => P (ix.take A.length) ic * Q ic (ix.drop A.length)).sum) m m' := by
  apply pair_core hr (fun ix => f ix + ((allIndices C).map fun ic => P (ix.take A.length) ic * Q ic (ix.drop A.length)).sum)
    (fun i j m => do
      let t ← loop C.prod (0 : α) fun k t => do
        let a ← m.read (p i k)
        let b ← m.read (q k j)
        .ok (t + a * b)
      incCell m (r.arr + (i * B.prod + j)) t)
  intro ia a1 ib a2 m' hm hv
  rw [sum_of (D := C) rfl (fun ic => P ia ic * Q ic ib) _ fun ic h t => by
    obtain ⟨p1, p2⟩ := hp ia ic a1 h
    obtain ⟨q1, q2⟩ := hq ic ib h a2
    rw [read_ok ((hm _ p2).trans p1), Res.ok_bind, read_ok ((hm _ q2).trans q1), Res.ok_bind]]
  rw [Res.ok_bind, incCell_ok hv, ← a1.length, List.take_left, List.drop_left]

theorem empty_sum [NonUnitalNonAssocSemiring α] {r : RA} {A B C : List Nat} {f : List Nat → α} {m : Buf α} (hr : r.Is (A ++ B) f m) (F : List Nat → List Nat → α)
    (h : A.prod * C.prod = 0 ∨ B.prod * C.prod = 0) : r.Becomes (A ++ B) (fun ix => f ix + ((allIndices C).map fun ic => F ix ic).sum) m m := by
  refine becomes_congr ⟨hr, fun _ _ => rfl⟩ fun ix hi => ?_
  have hp := position_lt hi
  rw [List.prod_append] at hp
  have hA : A.prod ≠ 0 := fun e => by rw [e, Nat.zero_mul] at hp; omega
  have hB : B.prod ≠ 0 := fun e => by rw [e, Nat.mul_zero] at hp; omega
  have hC : C.prod = 0 := by
    rcases h with h | h
    · exact (Nat.mul_eq_zero.1 h).resolve_left hA
    · exact (Nat.mul_eq_zero.1 h).resolve_left hB
  have : allIndices C = [] := List.length_eq_zero_iff.1 (by rw [allIndices_length, hC])
  rw [this]; simp

theorem own_pair {x : RA} {A B : List Nat} {f : List Nat → α} {m : Buf α} (h : x.Is (A ++ B) f m) {a b : Nat} (ha : a < A.prod) (hb : b < B.prod) :
    x.Owns (x.arr + (a * B.prod + b)) := h.owns (by rw [List.prod_append]; exact two_lt ha hb)

/-- `add_Mprod_AA`: the last axes of `x` against the first of `y`. -/
theorem C380_AA [NonUnitalNonAssocSemiring α] {r x y : RA} {A B C : List Nat} {f g h : List Nat → α} {m : Buf α} (hr : r.Is (A ++ B) f m) (hx : x.Is (A ++ C) g m)
    (hy : y.Is (C ++ B) h m) (hax : r.Apart x) (hay : r.Apart y) :
    ∃ m', addMprodAA r x y C.length C.length m = .ok m' ∧
      r.Becomes (A ++ B) (fun ix => f ix + ((allIndices C).map fun ic => g (ix.take A.length ++ ic) * h (ic ++ ix.drop A.length)).sum) m m' := by
  rw [addMprodAA, hx.asize, hy.asize]
  split
  · next e =>
    rw [List.prod_append, List.prod_append, Nat.mul_comm C.prod] at e
    exact ⟨m, rfl, empty_sum hr (fun ix ic => g (ix.take A.length ++ ic) * h (ic ++ ix.drop A.length)) e⟩
  · next e =>
    rw [not_or] at e
    have hl : x.dims.length - C.length = A.length := by rw [hx.dims]; simp
    rw [decide_eq_true (by rw [hx.dims]; simp), Res.assrt_true, Res.ok_bind, hl, combined_back hx e.1, Res.ok_bind, combined_front hy e.2, Res.ok_bind,
      decide_eq_true rfl, Res.assrt_true, Res.ok_bind, combined_front hx e.1, Res.ok_bind, combined_back hy e.2, Res.ok_bind,
      decide_eq_true (by rw [hr.asize, List.prod_append]), Res.assrt_true, Res.ok_bind]
    have h0 : r.asize ≠ 0 := by
      rw [hr.asize, List.prod_append]
      intro e'
      rw [List.prod_append, List.prod_append] at e
      rcases Nat.mul_eq_zero.1 e' with z | z
      · exact e.1 (by rw [z, Nat.zero_mul])
      · exact e.2 (by rw [z, Nat.mul_zero])
    rw [if_neg h0]
    refine prod_core hr _ _ (fun ia ic => g (ia ++ ic)) (fun ic ib => h (ic ++ ib)) (fun ia ic a1 a2 => ?_) (fun ic ib a1 a2 => ?_)
    · have := pair_at hx (position_lt a1) (position_lt a2)
      rw [nth_pos a1, nth_pos a2] at this
      exact ⟨this, fun ho => hax _ ho (own_pair hx (position_lt a1) (position_lt a2))⟩
    · have := pair_at hy (position_lt a1) (position_lt a2)
      rw [nth_pos a1, nth_pos a2] at this
      exact ⟨this, fun ho => hay _ ho (own_pair hy (position_lt a1) (position_lt a2))⟩

/-- `add_Mprod_AT`: the last axes of both. -/
theorem C380_AT [NonUnitalNonAssocSemiring α] {r x y : RA} {A B C : List Nat} {f g h : List Nat → α} {m : Buf α} (hr : r.Is (A ++ B) f m) (hx : x.Is (A ++ C) g m)
    (hy : y.Is (B ++ C) h m) (hax : r.Apart x) (hay : r.Apart y) :
    ∃ m', addMprodAT r x y C.length C.length m = .ok m' ∧
      r.Becomes (A ++ B) (fun ix => f ix + ((allIndices C).map fun ic => g (ix.take A.length ++ ic) * h (ix.drop A.length ++ ic)).sum) m m' := by
  rw [addMprodAT, hx.asize, hy.asize]
  split
  · next e =>
    rw [List.prod_append, List.prod_append] at e
    exact ⟨m, rfl, empty_sum hr (fun ix ic => g (ix.take A.length ++ ic) * h (ix.drop A.length ++ ic)) e⟩
  · next e =>
    rw [not_or] at e
    have hl : x.dims.length - C.length = A.length := by rw [hx.dims]; simp
    have hl' : y.dims.length - C.length = B.length := by rw [hy.dims]; simp
    rw [decide_eq_true (by rw [hx.dims]; simp), Res.assrt_true, Res.ok_bind, hl, combined_back hx e.1, Res.ok_bind, decide_eq_true (by rw [hy.dims]; simp), Res.assrt_true, Res.ok_bind,
      hl', combined_back hy e.2, Res.ok_bind,
      decide_eq_true rfl, Res.assrt_true, Res.ok_bind, combined_front hx e.1, Res.ok_bind, combined_front hy e.2, Res.ok_bind,
      decide_eq_true (by rw [hr.asize, List.prod_append]), Res.assrt_true, Res.ok_bind]
    have h0 : r.asize ≠ 0 := by
      rw [hr.asize, List.prod_append]
      intro e'
      rw [List.prod_append, List.prod_append] at e
      rcases Nat.mul_eq_zero.1 e' with z | z
      · exact e.1 (by rw [z, Nat.zero_mul])
      · exact e.2 (by rw [z, Nat.zero_mul])
    rw [if_neg h0]
    refine prod_core hr _ _ (fun ia ic => g (ia ++ ic)) (fun ic ib => h (ib ++ ic)) (fun ia ic a1 a2 => ?_) (fun ic ib a1 a2 => ?_)
    · have := pair_at hx (position_lt a1) (position_lt a2)
      rw [nth_pos a1, nth_pos a2] at this
      exact ⟨this, fun ho => hax _ ho (own_pair hx (position_lt a1) (position_lt a2))⟩
    · have := pair_at hy (position_lt a2) (position_lt a1)
      rw [nth_pos a1, nth_pos a2] at this
      rw [Nat.add_comm (position C ic)]
      exact ⟨this, fun ho => hay _ ho (own_pair hy (position_lt a2) (position_lt a1))⟩

/-- `add_Mprod_TA`: the first axes of both. -/
theorem C380_TA [NonUnitalNonAssocSemiring α] {r x y : RA} {A B C : List Nat} {f g h : List Nat → α} {m : Buf α} (hr : r.Is (A ++ B) f m) (hx : x.Is (C ++ A) g m)
    (hy : y.Is (C ++ B) h m) (hax : r.Apart x) (hay : r.Apart y) :
    ∃ m', addMprodTA r x y C.length C.length m = .ok m' ∧
      r.Becomes (A ++ B) (fun ix => f ix + ((allIndices C).map fun ic => g (ic ++ ix.take A.length) * h (ic ++ ix.drop A.length)).sum) m m' := by
  rw [addMprodTA, hx.asize, hy.asize]
  split
  · next e =>
    rw [List.prod_append, List.prod_append, Nat.mul_comm C.prod, Nat.mul_comm C.prod] at e
    exact ⟨m, rfl, empty_sum hr (fun ix ic => g (ic ++ ix.take A.length) * h (ic ++ ix.drop A.length)) e⟩
  · next e =>
    rw [not_or] at e
    rw [combined_front hx e.1, Res.ok_bind, combined_front hy e.2, Res.ok_bind,
      decide_eq_true rfl, Res.assrt_true, Res.ok_bind, combined_back hx e.1, Res.ok_bind, combined_back hy e.2, Res.ok_bind,
      decide_eq_true (by rw [hr.asize, List.prod_append]), Res.assrt_true, Res.ok_bind]
    have h0 : r.asize ≠ 0 := by
      rw [hr.asize, List.prod_append]
      intro e'
      rw [List.prod_append, List.prod_append] at e
      rcases Nat.mul_eq_zero.1 e' with z | z
      · exact e.1 (by rw [z, Nat.mul_zero])
      · exact e.2 (by rw [z, Nat.mul_zero])
    rw [if_neg h0]
    refine prod_core hr _ _ (fun ia ic => g (ic ++ ia)) (fun ic ib => h (ic ++ ib)) (fun ia ic a1 a2 => ?_) (fun ic ib a1 a2 => ?_)
    · have := pair_at hx (position_lt a2) (position_lt a1)
      rw [nth_pos a1, nth_pos a2] at this
      rw [Nat.add_comm (position A ia)]
      exact ⟨this, fun ho => hax _ ho (own_pair hx (position_lt a2) (position_lt a1))⟩
    · have := pair_at hy (position_lt a1) (position_lt a2)
      rw [nth_pos a1, nth_pos a2] at this
      exact ⟨this, fun ho => hay _ ho (own_pair hy (position_lt a1) (position_lt a2))⟩

/-- A matrix times a vector. -/
theorem C380_mulVec [NonUnitalNonAssocSemiring α] {M x : RA} {a b : Nat} {g h : List Nat → α} {m : Buf α} (hM : M.Is [a, b] g m) (hx : x.Is [b] h m)
    (junk : Nat → α) (q : Nat) (hf : Free m q (cells [a])) :
    ∃ y m', mulVec junk q M x m = .ok (y, m') ∧ y.Fresh q [a] (fun ix => ((List.range b).map fun j => g [ix.getD 0 0, j] * h [j]).sum) m m' := by
  obtain ⟨y, m1, e1, e2, e3, e4, e5⟩ := C363_zero (α := α) (D := [a]) (by simp) junk q m
  have hM1 : M.Is [a, b] g m1 := hM.keep fun c hc => e5 c (hM.not_free hf hc)
  have hx1 : x.Is [b] h m1 := hx.keep fun c hc => e5 c (hx.not_free hf hc)
  have hcl := (cells_pos [a]).2
  have hy : ∀ c, y.Owns c → q ≤ c ∧ c < q + cells [a] := fun c hc => by
    have := hc.1
    have := hc.2
    rw [e4.asize, e2] at this
    omega
  obtain ⟨m', h1, h2⟩ := ix_run e4 (fun ix => ((List.range b).map fun j => g [ix.getD 0 0, j] * h [j]).sum)
    (fun ix m => do
      let t ← loop b (0 : α) fun j t => do
        let a ← M.getInts [ix.getD 0 0, j] m
        let b ← x.getInts [j] m
        .ok (t + a * b)
      y.setInts ix t m) (by
    intro ix hi m' hm
    have hout : ∀ c, ¬ y.Owns c → m' c = m1 c := fun c hc => hm c fun jx hj _ => not_owns hc e4.asize (position_lt hj)
    obtain ⟨i, l, h1, h2, rfl⟩ := List.forall₂_cons_right_iff.1 hi
    rw [List.forall₂_nil_right_iff] at h2
    subst h2
    have hM2 : M.Is [a, b] g m' := hM1.keep fun c hc => hout c fun ho => hM.not_free hf hc (hy c ho)
    have hx2 : x.Is [b] h m' := hx1.keep fun c hc => hout c fun ho => hx.not_free hf hc (hy c ho)
    simp only [List.getD_cons_zero]
    rw [loop_sum b 0 _ (fun j => g [i, j] * h [j]) fun j hj t => by
      rw [(C369_get hM2 (ix := [i, j]) (.cons h1 (.cons hj .nil))).2, Res.ok_bind, (C369_get hx2 (ix := [j]) (.cons hj .nil)).2, Res.ok_bind]]
    rw [Res.ok_bind, setInts, decide_eq_true (by rw [e4.dims]; rfl), Res.assrt_true, Res.ok_bind, RA.set, e4.offset hi, Res.ok_bind, zero_add])
  refine ⟨y, m', ?_, e2, e3, h2.1, fun c hc => ?_⟩
  · rw [mulVec, hM.dims, hx.dims]
    simp only [List.length_cons, List.length_nil, decide_true, Res.assrt_true, Res.ok_bind, List.getD_cons_zero, List.getD_cons_succ]
    rw [e1, Res.ok_bind]
    exact (congrArg (fun r : Res (Buf α) => r >>= fun m => Res.ok (y, m)) h1).trans rfl
  · rw [h2.2 c fun ho => hc (hy c ho), e5 c hc]

/-- The tensor product of two matrices. -/
theorem C380_tensorProduct [Mul α] {x y : RA} {a b c d : Nat} {g h : List Nat → α} {m : Buf α} (hx : x.Is [a, b] g m) (hy : y.Is [c, d] h m)
    (junk : Nat → α) (q : Nat) (hf : Free m q (cells [a, b, c, d])) :
    ∃ z m', tensorProduct junk q x y m = .ok (z, m') ∧ z.Fresh q [a, b, c, d] (fun ix => g (ix.take 2) * h (ix.drop 2)) m m' := by
  have hne : [a, b, c, d] ≠ [] := by simp
  have hi0 := raw_is hne junk q m
  have hcl := (cells_pos [a, b, c, d]).2
  have keep : ∀ {w : RA} {D : List Nat} {k : List Nat → α}, w.Is D k m → ∀ m' : Buf α,
      (∀ c', ¬ (q ≤ c' ∧ c' < q + cells [a, b, c, d]) → m' c' = allocRaw junk m q (cells [a, b, c, d]) c') → w.Is D k m' := fun hw m' hm =>
    hw.keep fun c' hc => by rw [hm c' (hw.not_free hf hc), raw_off _ _ (hw.not_free hf hc)]
  obtain ⟨m', h1, h2⟩ := ix_run hi0 (fun ix => g (ix.take 2) * h (ix.drop 2)) (fun ix m => do
      let u ← x.getInts (ix.take 2) m
      let v ← y.getInts (ix.drop 2) m
      setInts ⟨q, [a, b, c, d], rmStrides [a, b, c, d], [a, b, c, d].prod, cells [a, b, c, d], cells [a, b, c, d], -1, false⟩ ix (u * v) m) (by
    intro ix hi m' hm
    have hout : ∀ c', ¬ (q ≤ c' ∧ c' < q + cells [a, b, c, d]) → m' c' = allocRaw junk m q (cells [a, b, c, d]) c' := fun c' hc => hm c' fun jx hj _ => by
      have := position_lt hj
      rintro rfl
      exact hc ⟨Nat.le_add_right _ _, by simp only; omega⟩
    have hx' := keep hx m' hout
    have hy' := keep hy m' hout
    obtain ⟨i1, i2⟩ := GT.inRange_split (A := [a, b]) (B := [c, d]) hi
    rw [show x.getInts (ix.take 2) m' = _ from (C369_get hx' i1).2, Res.ok_bind, show y.getInts (ix.drop 2) m' = _ from (C369_get hy' i2).2, Res.ok_bind, setInts, decide_eq_true (by exact hi.length.symm), Res.assrt_true, Res.ok_bind, RA.set,
      hi0.offset hi, Res.ok_bind]
    rfl)
  refine ⟨_, m', ?_, fresh_of rfl rfl h2⟩
  rw [tensorProduct, hx.dims, hy.dims, show gvCat [a, b] [c, d] = [a, b, c, d] from rfl, raw_ok hne, Res.ok_bind]
  simp only [List.length_cons, List.length_nil, decide_true, Res.assrt_true, Res.ok_bind, List.getD_cons_zero, List.getD_cons_succ]
  exact (congrArg (fun r : Res (Buf α) => r >>= fun m => Res.ok (_, m)) h1).trans rfl

example : ∃ m', addMprodAT (⟨0, [1, 1], [1, 1], 1, 32, 32, -1, false⟩ : RA) ⟨1, [1, 2], [2, 1], 2, 32, 32, -1, false⟩ ⟨3, [1, 2], [2, 1], 2, 32, 32, -1, false⟩ 1 1
    (Buf.ofList [(100 : Int), 2, 3, 4, 5]) = .ok m' ∧ m' 0 = some 123 := ⟨_, rfl, rfl⟩

/-! ### Blocks of entries -/

/-- The entries of `r` are dealt with block by block. -/
theorem blocks_core {ι : Type} {r : RA} {D : List Nat} {f : List Nat → α} {m : Buf α} (hr : r.Is D f m) (l : List ι) (hl : l.Nodup) (blk : ι → List Nat → Prop)
    (hall : ∀ ix, InRange ix D → ∃ i ∈ l, blk i ix) (hone : ∀ i j ix, blk i ix → blk j ix → i = j) (new : List Nat → α) (step : Buf α → ι → Res (Buf α))
    (hs : ∀ i ∈ l, ∀ m' : Buf α, (∀ c, ¬ r.Owns c → m' c = m c) → (∀ ix, InRange ix D → blk i ix → m' (r.arr + position D ix) = some (f ix)) →
      ∃ m'', step m' i = .ok m'' ∧ (∀ ix, InRange ix D → blk i ix → m'' (r.arr + position D ix) = some (new ix)) ∧
        ∀ c, (∀ ix, InRange ix D → blk i ix → c ≠ r.arr + position D ix) → m'' c = m' c) :
    ∃ m', Res.forM l m step = .ok m' ∧ r.Becomes D new m m' := by
  have inj : ∀ ix jx, InRange ix D → InRange jx D → r.arr + position D ix = r.arr + position D jx → ix = jx := fun ix jx a b e => by
    rw [← nth_pos a, ← nth_pos b, show position D ix = position D jx by omega]
  obtain ⟨m', h1, h2, h3⟩ := forM_regions l step (fun i c => ∃ ix, InRange ix D ∧ blk i ix ∧ c = r.arr + position D ix)
    (fun _ c => some (new (nth D (c - r.arr)))) m hl
    (by
      rintro i _ j _ hij c ⟨ix, a1, a2, rfl⟩ ⟨jx, b1, b2, e⟩
      have := inj ix jx a1 b1 e
      subst this
      exact hij (hone i j ix a2 b2))
    (by
      intro i hi m' hm
      obtain ⟨m'', e1, e2, e3⟩ := hs i hi m'
        (fun c hc => hm c (by rintro j _ _ ⟨jx, b1, _, rfl⟩; exact hc (hr.owns (position_lt b1))))
        (fun ix a1 a2 => by
          rw [hm _ (by
            rintro j _ hne ⟨jx, b1, b2, e⟩
            have := inj ix jx a1 b1 e
            subst this
            exact hne (hone j i ix b2 a2)), hr.has ix a1])
      refine ⟨m'', e1, ?_, fun c hc => e3 c fun ix a1 a2 e => hc ⟨ix, a1, a2, e⟩⟩
      rintro c ⟨ix, a1, a2, rfl⟩
      rw [e2 ix a1 a2, Nat.add_sub_cancel_left, nth_pos a1])
  refine ⟨m', h1, hr.mk' fun ix hi => ?_, fun c hc => h3 c ?_⟩
  · obtain ⟨i, a1, a2⟩ := hall ix hi
    rw [h2 i a1 _ ⟨ix, hi, a2, rfl⟩, Nat.add_sub_cancel_left, nth_pos hi]
  · rintro i _ ⟨ix, a1, _, rfl⟩
    exact hc (hr.owns (position_lt a1))

theorem range_last2 {A ix : List Nat} {I J : Nat} (h : InRange ix (A ++ [I, J])) : ∃ ia i j, ix = ia ++ [i, j] ∧ InRange ia A ∧ i < I ∧ j < J := by
  obtain ⟨h1, h2⟩ := GT.inRange_split h
  obtain ⟨i, j, e, a1, a2⟩ := in_two (a := I) (b := J) h2
  exact ⟨_, i, j, by rw [← e, List.take_append_drop], h1, a1, a2⟩

theorem pos_last2 {A ia : List Nat} {I J i j : Nat} (h : ia.length = A.length) : position (A ++ [I, J]) (ia ++ [i, j]) = position A ia * I * J + i * J + j := by
  rw [GT.position_app h]
  simp [position, Nat.mul_assoc, Nat.add_assoc]

/-- Column by column. -/
theorem cols_core {r : RA} {A : List Nat} {I J : Nat} {f : List Nat → α} {m : Buf α} (hr : r.Is (A ++ [I, J]) f m) (new : List Nat → α) (step : Nat → Nat → Buf α → Res (Buf α))
    (hs : ∀ ia, InRange ia A → ∀ j, j < J → ∀ m' : Buf α, (∀ c, ¬ r.Owns c → m' c = m c) →
      ∃ inner : Nat → Buf α → Res (Buf α), step (position A ia) j m' = loop I m' inner ∧ ∀ i, i < I → ∀ m'' : Buf α, (∀ c, ¬ r.Owns c → m'' c = m c) →
        m'' (r.arr + (position A ia * I * J + i * J + j)) = some (f (ia ++ [i, j])) →
        inner i m'' = m''.write (r.arr + (position A ia * I * J + i * J + j)) (new (ia ++ [i, j]))) :
    ∃ m', (loop A.prod m fun a m => loop J m fun j m => step a j m) = .ok m' ∧ r.Becomes (A ++ [I, J]) new m m' := by
  rw [loop2_eq]
  apply blocks_core hr (pairs A.prod J) (nodup_pairs _ _) (fun p ix => ∃ ia i, InRange ia A ∧ i < I ∧ ix = ia ++ [i, p.2] ∧ position A ia = p.1)
  · intro ix hi
    obtain ⟨ia, i, j, rfl, a1, a2, a3⟩ := range_last2 hi
    exact ⟨(position A ia, j), mem_pairs.2 ⟨position_lt a1, a3⟩, ia, i, a1, a2, rfl, rfl⟩
  · rintro ⟨a, j⟩ ⟨a', j'⟩ ix ⟨ia, i, h1, h2, rfl, h4⟩ ⟨ia', i', k1, k2, k3, k4⟩
    obtain ⟨e1, e2⟩ := List.append_inj k3 (by rw [h1.length, k1.length])
    simp only [List.cons.injEq, and_true] at e2
    subst e1
    rw [Prod.mk.injEq]
    exact ⟨h4.symm.trans k4, e2.2⟩
  · rintro ⟨a, j⟩ hp m' hm hv
    obtain ⟨p1, p2⟩ := mem_pairs.1 hp
    simp only at p1 p2 ⊢
    obtain ⟨ia, i1, rfl⟩ := GT.surj p1
    obtain ⟨inner, e1, e2⟩ := hs ia i1 j p2 m' hm
    have own : ∀ i, i < I → r.Owns (r.arr + (position A ia * I * J + i * J + j)) := fun i hi => by
      rw [← pos_last2 i1.length]; exact hr.owns (position_lt (GT.inRange_app i1 (.cons hi (.cons p2 .nil))))
    have hv' : ∀ i, i < I → m' (r.arr + (position A ia * I * J + i * J + j)) = some (f (ia ++ [i, j])) := fun i hi => by
      rw [← pos_last2 i1.length]; exact hv _ (GT.inRange_app i1 (.cons hi (.cons p2 .nil))) ⟨ia, i, i1, hi, rfl, rfl⟩
    have sep : ∀ i k, r.arr + (position A ia * I * J + i * J + j) = r.arr + (position A ia * I * J + k * J + j) → i = k := fun i k e =>
      Nat.eq_of_mul_eq_mul_right (Nat.lt_of_le_of_lt (Nat.zero_le j) p2) (by omega : i * J = k * J)
    obtain ⟨m'', g1, g2, g3⟩ := loop_cells I (fun i => r.arr + (position A ia * I * J + i * J + j)) (fun i => new (ia ++ [i, j])) inner m'
      (fun i _ k _ e => sep i k e) (fun i hi => by rw [hv' i hi]; rfl)
      (fun i hi m'' hm'' => e2 i hi m'' (fun c hc => by rw [hm'' c fun k hk _ e => hc (e ▸ own k hk), hm c hc])
        (by rw [hm'' _ fun k _ hne e => hne (sep i k e).symm, hv' i hi]))
    refine ⟨m'', by rw [e1, g1], ?_, fun c hc => g3 c fun i hi => ?_⟩
    · rintro ix _ ⟨ia', i, k1, k2, rfl, k4⟩
      have : ia' = ia := by rw [← nth_pos k1, k4, nth_pos i1]
      subst this
      rw [pos_last2 k1.length]; exact g2 i k2
    · rw [← pos_last2 i1.length]; exact hc _ (GT.inRange_app i1 (.cons hi (.cons p2 .nil))) ⟨ia, i, i1, hi, rfl, rfl⟩

theorem lastTwo_ok {x : RA} {A : List Nat} {I J : Nat} {f : List Nat → α} {m : Buf α} (h : x.Is (A ++ [I, J]) f m) (h0 : I * J ≠ 0) : x.lastTwo = .ok (A.prod, I, J) := by
  have hl : x.dims.length = A.length + 2 := by rw [h.dims]; simp
  rw [lastTwo, decide_eq_true (by omega), Res.assrt_true, Res.ok_bind, get_at (v := J) (by
    rw [hl, h.dims, List.getElem?_append_right (by omega), show A.length + 2 - 1 - A.length = 1 by omega]; rfl), Res.ok_bind, get_at (v := I) (by
    rw [hl, h.dims, List.getElem?_append_right (by omega), show A.length + 2 - 2 - A.length = 0 by omega]; rfl), Res.ok_bind,
    show Res.need (decide (I * J ≠ 0)) = .ok () by rw [decide_eq_true h0]; rfl, Res.ok_bind, h.asize]
  simp only [List.prod_append, List.prod_cons, List.prod_nil, Nat.mul_one]
  rw [Nat.mul_div_cancel _ (Nat.pos_of_ne_zero h0)]

theorem last_at {x : RA} {A : List Nat} {J : Nat} {f : List Nat → α} {m : Buf α} (h : x.Is (A ++ [J]) f m) {ia : List Nat} (ha : InRange ia A) {j : Nat} (hj : j < J) :
    m (x.arr + (position A ia * J + j)) = some (f (ia ++ [j])) ∧ x.Owns (x.arr + (position A ia * J + j)) := by
  have e : position (A ++ [J]) (ia ++ [j]) = position A ia * J + j := by rw [GT.position_app ha.length]; simp [position]
  have hi : InRange (ia ++ [j]) (A ++ [J]) := GT.inRange_app ha (.cons hj .nil)
  rw [← e]
  exact ⟨h.has _ hi, h.owns (position_lt hi)⟩

theorem last2_at {x : RA} {A : List Nat} {I J : Nat} {f : List Nat → α} {m : Buf α} (h : x.Is (A ++ [I, J]) f m) {ia : List Nat} (ha : InRange ia A) {i j : Nat} (hi : i < I)
    (hj : j < J) : m (x.arr + (position A ia * I * J + i * J + j)) = some (f (ia ++ [i, j])) ∧ x.Owns (x.arr + (position A ia * I * J + i * J + j)) := by
  have hk : InRange (ia ++ [i, j]) (A ++ [I, J]) := GT.inRange_app ha (.cons hi (.cons hj .nil))
  rw [← pos_last2 ha.length]
  exact ⟨h.has _ hk, h.owns (position_lt hk)⟩

/-- The index without the last but one entry. -/
def RA.noRow (ix : List Nat) : List Nat := ix.eraseIdx (ix.length - 2)

theorem noRow_app (ia : List Nat) (i j : Nat) : noRow (ia ++ [i, j]) = ia ++ [j] := by
  rw [noRow, List.length_append]
  simp only [List.length_cons, List.length_nil]
  rw [show ia.length + (0 + 1 + 1) - 2 = ia.length by omega, List.eraseIdx_append_of_length_le (Nat.le_refl _), Nat.sub_self]
  rfl

/-! ### C381: columns -/

/-- The norms of the columns are added. -/
theorem C381_addColNorms [NonUnitalNonAssocSemiring α] (sq : α → α) {r x : RA} {A : List Nat} {I J : Nat} {f g : List Nat → α} {m : Buf α} (hr : r.Is (A ++ [J]) f m)
    (hx : x.Is (A ++ [I, J]) g m) (h0 : I * J ≠ 0) (ha : r.Apart x) :
    ∃ m', r.addColNorms sq x m = .ok m' ∧
      r.Becomes (A ++ [J]) (fun ix => f ix + sq ((List.range I).map fun i => g (ix.insertIdx A.length i) * g (ix.insertIdx A.length i)).sum) m m' := by
  rw [addColNorms, lastTwo_ok hx h0, Res.ok_bind]
  simp only
  rw [decide_eq_true (by rw [hr.asize]; simp), Res.assrt_true, Res.ok_bind]
  have := pair_core hr (fun ix => f ix + sq ((List.range I).map fun i => g (ix.insertIdx A.length i) * g (ix.insertIdx A.length i)).sum)
    (fun a j m => do
      let t ← loop I (0 : α) fun i t => do
        let v ← m.read (x.arr + (a * I * J + i * J + j))
        .ok (t + v * v)
      incCell m (r.arr + (a * J + j)) (sq t)) (by
    intro ia a1 ib a2 m' hm hv
    obtain ⟨j, l, h1, h2, rfl⟩ := List.forall₂_cons_right_iff.1 a2
    rw [List.forall₂_nil_right_iff] at h2
    subst h2
    have ej : position [J] [j] = j := by simp [position]
    rw [ej] at hv ⊢
    simp only [List.prod_singleton] at hv ⊢
    rw [loop_sum I 0 _ (fun i => g (ia ++ [i, j]) * g (ia ++ [i, j])) fun i hi t => by
      obtain ⟨b1, b2⟩ := last2_at hx a1 hi h1
      rw [read_ok ((hm _ fun ho => ha _ ho b2).trans b1), Res.ok_bind]]
    rw [Res.ok_bind, incCell_ok hv, zero_add]
    congr 4
    refine List.map_congr_left fun i _ => ?_
    rw [← a1.length, RA.insert_axis])
  simpa only [List.prod_singleton] using this

/-- `add_divide_cols` (and `add_divide_cols_back0`). -/
theorem C381_addDivideCols [Add α] [Div α] {r X N : RA} {A : List Nat} {I J : Nat} {f g n : List Nat → α} {m : Buf α} (hr : r.Is (A ++ [I, J]) f m) (hX : X.Is (A ++ [I, J]) g m)
    (hN : N.Is (A ++ [J]) n m) (h0 : I * J ≠ 0) (haX : r.Apart X) (haN : r.Apart N) :
    ∃ m', r.addDivideCols X N m = .ok m' ∧ r.Becomes (A ++ [I, J]) (fun ix => f ix + g ix / n (noRow ix)) m m' := by
  have hI : 0 < I := Nat.pos_of_ne_zero fun e => h0 (by rw [e, Nat.zero_mul])
  rw [addDivideCols, decide_eq_true (by rw [hr.dims]; simp), Res.assrt_true, Res.ok_bind, decide_eq_true (by rw [hr.asize, hX.asize]), Res.assrt_true, Res.ok_bind,
    lastTwo_ok hr h0, Res.ok_bind]
  simp only
  rw [decide_eq_true (by rw [hr.asize, hN.asize]; simp only [List.prod_append, List.prod_cons, List.prod_nil, Nat.mul_one]; rw [Nat.mul_left_comm, Nat.mul_div_cancel_left _ hI]),
    Res.assrt_true, Res.ok_bind, colsLoop]
  refine cols_core hr _ _ fun ia a1 j hj m' hm => ?_
  obtain ⟨n1, n2⟩ := last_at hN a1 hj
  refine ⟨_, by rw [read_ok ((hm _ fun ho => haN _ ho n2).trans n1), Res.ok_bind], fun i hi m'' hm'' hv => ?_⟩
  obtain ⟨b1, b2⟩ := last2_at hX a1 hi hj
  rw [read_ok ((hm'' _ fun ho => haX _ ho b2).trans b1), Res.ok_bind, incCell_ok hv, noRow_app]

/-- `add_col_norms_back`. -/
theorem C381_addColNormsBack [Add α] [Mul α] [Div α] {r G X N : RA} {A : List Nat} {I J : Nat} {f u g n : List Nat → α} {m : Buf α} (hr : r.Is (A ++ [I, J]) f m)
    (hG : G.Is (A ++ [J]) u m) (hX : X.Is (A ++ [I, J]) g m) (hN : N.Is (A ++ [J]) n m) (h0 : I * J ≠ 0) (haG : r.Apart G) (haX : r.Apart X) (haN : r.Apart N) :
    ∃ m', r.addColNormsBack G X N m = .ok m' ∧ r.Becomes (A ++ [I, J]) (fun ix => f ix + g ix * (u (noRow ix) / n (noRow ix))) m m' := by
  have hI : 0 < I := Nat.pos_of_ne_zero fun e => h0 (by rw [e, Nat.zero_mul])
  rw [addColNormsBack, decide_eq_true (by rw [hr.dims]; simp), Res.assrt_true, Res.ok_bind, decide_eq_true (by rw [hr.asize, hX.asize]), Res.assrt_true, Res.ok_bind,
    lastTwo_ok hr h0, Res.ok_bind]
  simp only
  rw [decide_eq_true (by rw [hr.asize, hN.asize]; simp only [List.prod_append, List.prod_cons, List.prod_nil, Nat.mul_one]; rw [Nat.mul_left_comm, Nat.mul_div_cancel_left _ hI]),
    Res.assrt_true, Res.ok_bind, decide_eq_true (by rw [hG.asize, hN.asize]), Res.assrt_true, Res.ok_bind, colsLoop]
  refine cols_core hr _ _ fun ia a1 j hj m' hm => ?_
  obtain ⟨n1, n2⟩ := last_at hN a1 hj
  obtain ⟨g1, g2⟩ := last_at hG a1 hj
  refine ⟨_, by rw [read_ok ((hm _ fun ho => haG _ ho g2).trans g1), Res.ok_bind, read_ok ((hm _ fun ho => haN _ ho n2).trans n1)]; rfl, fun i hi m'' hm'' hv => ?_⟩
  obtain ⟨b1, b2⟩ := last2_at hX a1 hi hj
  rw [read_ok ((hm'' _ fun ho => haX _ ho b2).trans b1), Res.ok_bind, incCell_ok hv, noRow_app]

/-- Repeated increments of a cell. -/
theorem inc_run [AddMonoid α] {n c : Nat} {step : Nat → Buf α → Res (Buf α)} {v : Nat → α} {m : Buf α} {a : α} (hc : m c = some a)
    (hs : ∀ i, i < n → ∀ m' : Buf α, (∀ c', c' ≠ c → m' c' = m c') → step i m' = incCell m' c (v i)) :
    ∃ m', loop n m step = .ok m' ∧ m' c = some (a + ((List.range n).map v).sum) ∧ ∀ c', c' ≠ c → m' c' = m c' := by
  induction n with
  | zero => exact ⟨m, rfl, by simpa using hc, fun _ _ => rfl⟩
  | succ n ih =>
    obtain ⟨m1, e1, e2, e3⟩ := ih fun i hi => hs i (by omega)
    refine ⟨_, by rw [loop_snoc, e1, Res.ok_bind, hs n (by omega) m1 e3, incCell_ok e2, write_ok (by rw [e2])], ?_, fun c' h => ?_⟩
    · rw [List.range_succ, List.map_append, List.sum_append, ← add_assoc]
      simp
    · simp [h, e3 c' h]

/-- `add_divide_cols_back1`. -/
theorem C381_addDivideColsBack1 [Ring α] (sqInv : α → α) {r G X N : RA} {A : List Nat} {I J : Nat} {f u g n : List Nat → α} {m : Buf α} (hr : r.Is (A ++ [J]) f m)
    (hG : G.Is (A ++ [I, J]) u m) (hX : X.Is (A ++ [I, J]) g m) (hN : N.Is (A ++ [J]) n m) (h0 : I * J ≠ 0) (haG : r.Apart G) (haX : r.Apart X) (haN : r.Apart N) :
    ∃ m', r.addDivideColsBack1 sqInv G X N m = .ok m' ∧ r.Becomes (A ++ [J])
      (fun ix => f ix + ((List.range I).map fun i => u (ix.insertIdx A.length i) * g (ix.insertIdx A.length i) * -sqInv (n ix)).sum) m m' := by
  have hI : 0 < I := Nat.pos_of_ne_zero fun e => h0 (by rw [e, Nat.zero_mul])
  rw [addDivideColsBack1, decide_eq_true (by rw [hG.dims]; simp), Res.assrt_true, Res.ok_bind, decide_eq_true (by rw [hG.dims, hX.dims]), Res.assrt_true, Res.ok_bind,
    decide_eq_true (by rw [hr.dims, hN.dims]), Res.assrt_true, Res.ok_bind, lastTwo_ok hG h0, Res.ok_bind]
  simp only
  rw [decide_eq_true (by rw [hG.asize, hN.asize]; simp only [List.prod_append, List.prod_cons, List.prod_nil, Nat.mul_one]; rw [Nat.mul_left_comm, Nat.mul_div_cancel_left _ hI]),
    Res.assrt_true, Res.ok_bind, decide_eq_true (by rw [hr.asize, hN.asize]), Res.assrt_true, Res.ok_bind]
  have := pair_core hr (fun ix => f ix + ((List.range I).map fun i => u (ix.insertIdx A.length i) * g (ix.insertIdx A.length i) * -sqInv (n ix)).sum)
    (fun a j m => do
      let n ← m.read (N.arr + (a * J + j))
      loop I m fun i m => do
        let g ← m.read (G.arr + (a * I * J + i * J + j))
        let v ← m.read (X.arr + (a * I * J + i * J + j))
        incCell m (r.arr + (a * J + j)) (g * v * -sqInv n)) (by
    intro ia a1 ib a2 m' hm hv
    obtain ⟨j, l, h1, h2, rfl⟩ := List.forall₂_cons_right_iff.1 a2
    rw [List.forall₂_nil_right_iff] at h2
    subst h2
    have ej : position [J] [j] = j := by simp [position]
    rw [ej] at hv ⊢
    simp only [List.prod_singleton] at hv ⊢
    obtain ⟨n1, n2⟩ := last_at hN a1 h1
    obtain ⟨_, r2⟩ := last_at hr a1 h1
    have ins : ∀ i, (ia ++ [j]).insertIdx A.length i = ia ++ [i, j] := fun i => by rw [← a1.length, RA.insert_axis]
    rw [read_ok ((hm _ fun ho => haN _ ho n2).trans n1), Res.ok_bind]
    obtain ⟨m2, e1, e2, e3⟩ := inc_run (n := I) (v := fun i => u (ia ++ [i, j]) * g (ia ++ [i, j]) * -sqInv (n (ia ++ [j]))) hv
      (step := fun i m => do
        let g ← m.read (G.arr + (position A ia * I * J + i * J + j))
        let v ← m.read (X.arr + (position A ia * I * J + i * J + j))
        incCell m (r.arr + (position A ia * J + j)) (g * v * -sqInv (n (ia ++ [j])))) fun i hi m2 h2 => by
          obtain ⟨b1, b2⟩ := last2_at hG a1 hi h1
          obtain ⟨d1, d2⟩ := last2_at hX a1 hi h1
          rw [read_ok ((h2 _ fun e => haG _ r2 (e ▸ b2)).trans ((hm _ fun ho => haG _ ho b2).trans b1)), Res.ok_bind,
            read_ok ((h2 _ fun e => haX _ r2 (e ▸ d2)).trans ((hm _ fun ho => haX _ ho d2).trans d1)), Res.ok_bind]
    rw [e1, write_ok (by rw [hv])]
    congr 1
    funext c
    by_cases hc : c = r.arr + (position A ia * J + j)
    · subst hc
      simp [e2, ins]
    · simp [hc, e3 c hc])
  simpa only [List.prod_singleton] using this

example : ∃ m', addColNorms (fun t => t) (⟨0, [2], [1], 2, 32, 32, -1, false⟩ : RA) ⟨2, [2, 2], [2, 1], 4, 32, 32, -1, false⟩
    (Buf.ofList [(100 : Int), 200, 1, 2, 3, 4]) = .ok m' ∧ m' 0 = some 110 ∧ m' 1 = some 220 := ⟨_, rfl, rfl, rfl⟩

example : ∃ m', addDivideCols (⟨0, [2, 1], [1, 1], 2, 32, 32, -1, false⟩ : RA) ⟨2, [2, 1], [1, 1], 2, 32, 32, -1, false⟩ ⟨4, [1], [1], 1, 32, 32, -1, false⟩
    (Buf.ofList [(100 : Int), 200, 6, 8, 2]) = .ok m' ∧ m' 0 = some 103 ∧ m' 1 = some 204 := ⟨_, rfl, rfl, rfl⟩

/-! ### C382: dividing and normalizing columns -/

/-- `divide_cols(N)` answers 0 divided by the number of the column, whatever the tensor.  Missing: its entries are not divided. -/
theorem C382_divideCols_partial [Zero α] [Div α] {x N : RA} {A : List Nat} {I J : Nat} {g n : List Nat → α} {m : Buf α} (hx : x.Is (A ++ [I, J]) g m)
    (hN : N.Is (A ++ [J]) n m) (h0 : I * J ≠ 0) (junk : Nat → α) (q : Nat) (hf : Free m q (cells (A ++ [I, J]))) :
    ∃ y m', divideCols junk q x N m = .ok (y, m') ∧ y.Fresh q (A ++ [I, J]) (fun ix => 0 / n (noRow ix)) m m' := by
  have hI : 0 < I := Nat.pos_of_ne_zero fun e => h0 (by rw [e, Nat.zero_mul])
  obtain ⟨y, m1, e1, e2, e3, e4, e5⟩ := C363_zero (α := α) (D := A ++ [I, J]) (by simp) junk q m
  have hcl := (cells_pos (A ++ [I, J])).2
  have hy : ∀ c, y.Owns c → q ≤ c ∧ c < q + cells (A ++ [I, J]) := fun c hc => by
    have := hc.1
    have := hc.2
    rw [e4.asize, e2] at this
    omega
  obtain ⟨m', h1, h2⟩ := cols_core e4 (fun ix => 0 / n (noRow ix)) (fun a j m => do
      let z ← m.read (N.arr + (a * J + j))
      loop I m fun i m => do
        let v ← m.read (y.arr + (a * I * J + i * J + j))
        m.write (y.arr + (a * I * J + i * J + j)) (v / z)) (by
    intro ia a1 j hj m' hm
    obtain ⟨n1, n2⟩ := last_at hN a1 hj
    refine ⟨_, by rw [read_ok ((hm _ fun ho => hN.not_free hf n2 (hy _ ho)).trans ((e5 _ (hN.not_free hf n2)).trans n1)), Res.ok_bind], fun i hi m'' hm'' hv => ?_⟩
    rw [read_ok hv, Res.ok_bind, noRow_app])
  refine ⟨y, m', ?_, e2, e3, h2.1, fun c hc => ?_⟩
  · rw [divideCols, lastTwo_ok hx h0, Res.ok_bind]
    simp only
    rw [decide_eq_true (by rw [hx.asize, hN.asize]; simp only [List.prod_append, List.prod_cons, List.prod_nil, Nat.mul_one]; rw [Nat.mul_left_comm, Nat.mul_div_cancel_left _ hI]),
      Res.assrt_true, Res.ok_bind, hx.dims, e1, Res.ok_bind]
    simp only
    rw [h1, Res.ok_bind]
  · rw [h2.2 c fun ho => hc (hy c ho), e5 c hc]

/-- The columns `(6, 8)` divided by 2 should be `(3, 4)`: zeros are answered. -/
theorem C382_divideCols_fails : ∃ y m', divideCols (fun _ => (9 : Int)) 3 ⟨0, [2, 1], [1, 1], 2, 32, 32, -1, false⟩ ⟨2, [1], [1], 1, 32, 32, -1, false⟩
    (Buf.ofList [6, 8, 2]) = .ok (y, m') ∧ y.dims = [2, 1] ∧ m' y.arr = some 0 ∧ m' (y.arr + 1) = some 0 := ⟨_, _, rfl, rfl, rfl, rfl⟩

/-- `normalize_cols()` divides each row by its norm.  Missing: columns. -/
theorem C382_normalizeCols_partial [NonUnitalNonAssocSemiring α] [Div α] (sq : α → α) {x : RA} {A : List Nat} {J : Nat} {g : List Nat → α} {m : Buf α}
    (hx : x.Is (A ++ [J]) g m) (h0 : J ≠ 0) (junk : Nat → α) (q : Nat) (hf : Free m q (max x.memsize 1)) :
    ∃ y m', normalizeCols sq junk q x m = .ok (y, m') ∧ y.arr = q ∧
      y.Is (A ++ [J]) (fun ix => g ix / sq ((List.range J).map fun j => g (ix.dropLast ++ [j]) * g (ix.dropLast ++ [j])).sum) m' ∧
      ∀ c, ¬ (q ≤ c ∧ c < q + max x.memsize 1) → m' c = m c := by
  obtain ⟨y, m1, e1, e2, e3, e4, e5, _, _, e6⟩ := C366_copy hx junk q hf
  have hJ : 0 < J := Nat.pos_of_ne_zero h0
  have hy : ∀ c, y.Owns c → q ≤ c ∧ c < q + max x.memsize 1 := fun c hc => by
    have h1 := hc.1
    have h2 := hc.2
    have h3 := hx.room
    have h4 := Nat.le_max_left x.memsize 1
    rw [e5.asize, e2] at h2
    omega
  have hpos : ∀ (ia : List Nat) (j : Nat), InRange ia A → position (A ++ [J]) (ia ++ [j]) = position A ia * J + j := fun ia j h => by rw [GT.position_app h.length]; simp [position]
  have hsplit : ∀ ix, InRange ix (A ++ [J]) → ∃ ia j, ix = ia ++ [j] ∧ InRange ia A ∧ j < J := fun ix hi => by
    obtain ⟨ia, k, ib, rfl, h1, h2, h3, _⟩ := range_axis (B := []) hi
    have : ib = [] := List.forall₂_nil_right_iff.1 h3
    subst this
    exact ⟨ia, k, rfl, h1, h2⟩
  obtain ⟨m', h1, h2⟩ := blocks_core e5 (List.range A.prod) List.nodup_range (fun a ix => ∃ ia j, InRange ia A ∧ j < J ∧ ix = ia ++ [j] ∧ position A ia = a)
    (by
      intro ix hi
      obtain ⟨ia, j, rfl, a1, a2⟩ := hsplit ix hi
      exact ⟨_, List.mem_range.2 (position_lt a1), ia, j, a1, a2, rfl, rfl⟩)
    (by
      rintro a b ix ⟨ia, j, a1, _, rfl, rfl⟩ ⟨ib, k, b1, _, e, rfl⟩
      rw [(List.append_inj e (by rw [a1.length, b1.length])).1])
    (fun ix => g ix / sq ((List.range J).map fun j => g (ix.dropLast ++ [j]) * g (ix.dropLast ++ [j])).sum)
    (fun m i => do
      let t ← loop J (0 : α) fun j t => do
        let v ← m.read (y.arr + (i * J + j))
        .ok (t + v * v)
      loop J m fun j m => do
        let v ← m.read (y.arr + (i * J + j))
        m.write (y.arr + (i * J + j)) (v / sq t))
    (by
      intro a ha m' hm hv
      obtain ⟨ia, a1, rfl⟩ := GT.surj (List.mem_range.1 ha)
      have hv' : ∀ j, j < J → m' (y.arr + (position A ia * J + j)) = some (g (ia ++ [j])) := fun j hj => by
        rw [← hpos ia j a1]; exact hv _ (GT.inRange_app a1 (.cons hj .nil)) ⟨ia, j, a1, hj, rfl, rfl⟩
      rw [loop_sum J 0 _ (fun j => g (ia ++ [j]) * g (ia ++ [j])) fun j hj t => by rw [read_ok (hv' j hj), Res.ok_bind], Res.ok_bind, zero_add]
      obtain ⟨m'', g1, g2, g3⟩ := loop_cells J (fun j => y.arr + (position A ia * J + j)) (fun j => g (ia ++ [j]) / sq ((List.range J).map fun j => g (ia ++ [j]) * g (ia ++ [j])).sum)
        (fun j m => do
          let v ← m.read (y.arr + (position A ia * J + j))
          m.write (y.arr + (position A ia * J + j)) (v / sq ((List.range J).map fun j => g (ia ++ [j]) * g (ia ++ [j])).sum)) m'
        (fun i _ k _ e => by omega) (fun j hj => by rw [hv' j hj]; rfl)
        (fun j hj m'' hm'' => by
          rw [read_ok ((hm'' _ fun k _ hne e => hne (by omega)).trans (hv' j hj)), Res.ok_bind])
      refine ⟨m'', g1, ?_, fun c hc => g3 c fun j hj => ?_⟩
      · rintro ix _ ⟨ia', j, k1, k2, rfl, k4⟩
        have : ia' = ia := by rw [← nth_pos k1, k4, nth_pos a1]
        subst this
        rw [hpos _ _ k1, g2 j k2, List.dropLast_concat]
      · rw [← hpos ia j a1]; exact hc _ (GT.inRange_app a1 (.cons hj .nil)) ⟨ia, j, a1, hj, rfl, rfl⟩)
  refine ⟨y, m', ?_, e2, h2.1, fun c hc => by rw [h2.2 c fun ho => hc (hy c ho), e6 c hc]⟩
  have hl : x.dims.length = A.length + 1 := by rw [hx.dims]; simp
  rw [normalizeCols, get_at (v := J) (by rw [hl, hx.dims]; simp), Res.ok_bind, show Res.need (decide (J ≠ 0)) = .ok () by rw [decide_eq_true h0]; rfl, Res.ok_bind, e1, Res.ok_bind]
  simp only
  rw [show x.asize / J = A.prod by rw [hx.asize]; simp only [List.prod_append, List.prod_singleton]; exact Nat.mul_div_cancel _ hJ, loop, h1, Res.ok_bind]

/-- The columns of `[[3, 0], [4, 5]]` have norms 5 and 5 (here squared: 25, 25); what is divided by are the norms of the rows, 9 and 41. -/
theorem C382_normalizeCols_fails : ∃ y m', normalizeCols (fun t => t) (fun _ => (9 : ℚ)) 4 ⟨0, [2, 2], [2, 1], 4, 4, 4, -1, false⟩
    (Buf.ofList [3, 0, 4, 5]) = .ok (y, m') ∧ m' y.arr = some (3 / 9) ∧ m' (y.arr + 3) = some (5 / 41) := ⟨_, _, rfl, by decide +kernel, by decide +kernel⟩

/-! ### C383: reductions -/

/-- Summing an axis that is not the first and has at least two entries. -/
theorem C383_reduceDestr [AddCommMonoid α] {x : RA} {A B : List Nat} {d : Nat} {g : List Nat → α} {m : Buf α} (hx : x.Is (A ++ d :: B) g m) (hA : A ≠ []) (hd : 2 ≤ d)
    (junk : Nat → α) (q : Nat) (hf : Free m q (cells (A ++ B))) :
    ∃ y m', reduceDestr junk q x A.length m = .ok (y, m') ∧ y.arr = q ∧ y.isView = false ∧
      y.Is (A ++ B) (fun ix => ((List.range d).map fun k => g (ix.insertIdx A.length k)).sum) m' ∧
      ∀ c, ¬ x.Owns c → ¬ (q ≤ c ∧ c < q + cells (A ++ B)) → m' c = m c := by
  have hA' : 0 < A.length := List.length_pos_iff.2 hA
  obtain ⟨y, m1, e1, e2, e3, e4, e5⟩ := C363_zero (α := α) (D := A ++ B) (by simp [hA]) junk q m
  have hcl := (cells_pos (A ++ B)).2
  have hy : ∀ c, y.Owns c → q ≤ c ∧ c < q + cells (A ++ B) := fun c hc => by
    have := hc.1
    have := hc.2
    rw [e4.asize, e2] at this
    omega
  have hx1 : x.Is (A ++ d :: B) g m1 := hx.keep fun c hc => e5 c (hx.not_free hf hc)
  let v : RV3 := ⟨x.arr, A.prod, d, B.prod, d * B.prod, B.prod, 1⟩
  let r : RV2 := ⟨y.arr, A.prod, B.prod, B.prod, 1⟩
  have hvm : ∀ i, i < A.prod → ∀ j, j < d → ∀ k, k < B.prod → x.Owns (v.cell i j k) := fun i hi j hj k hk => by
    have : v.cell i j k = x.arr + (i * (d * B.prod) + (j * B.prod + k)) := by
      show x.arr + (d * B.prod * i + B.prod * j + 1 * k) = _
      rw [Nat.mul_comm _ i, Nat.mul_comm _ j]; omega
    rw [this]
    exact hx.owns (by rw [axis_prod]; exact two_lt hi (two_lt hj hk))
  have hrm : ∀ i, i < A.prod → ∀ k, k < B.prod → r.cell i k = y.arr + (i * B.prod + k) := fun i _ k _ => by
    show y.arr + (B.prod * i + 1 * k) = _
    rw [Nat.mul_comm _ i]; omega
  obtain ⟨m', h1, h2, h3⟩ := C240_reduce1Into_partial v (.inl ⟨by
      simp [v, RV3.isRegular], hd⟩) r rfl rfl (by
      intro i hi k hk i' hi' k' hk' e
      rw [hrm i hi k hk, hrm i' hi' k' hk'] at e
      exact two_inj hk hk' (Nat.add_left_cancel e)) (by
      intro i hi j hj k hk i' hi' k' hk' e
      refine hx.not_free hf (hvm i hi j hj k hk) (hy _ ?_)
      rw [e, hrm i' hi' k' hk']
      exact own_pair e4 hi' hk') m1 (fun i j k => g (nth A i ++ j :: nth B k)) (fun _ _ => 0)
    (by
      intro i hi j hj k hk
      have : v.cell i j k = x.arr + (i * (d * B.prod) + (j * B.prod + k)) := by
        show x.arr + (d * B.prod * i + B.prod * j + 1 * k) = _
        rw [Nat.mul_comm _ i, Nat.mul_comm _ j]; omega
      rw [this]; exact axis_at hx1 hi hj hk)
    (by
      intro i hi k hk
      rw [hrm i hi k hk]; exact pair_at e4 hi hk)
  have hdrop : (A ++ d :: B).drop (A.length + 1) = B := by rw [List.drop_append, List.drop_eq_nil_of_le (by omega)]; simp
  refine ⟨y, m', ?_, e2, e3, e4.mk' fun ix hi => ?_, fun c h4 h5 => ?_⟩
  · rw [reduceDestr, Is.regular hx, Res.assrt_true, Res.ok_bind, hx.dims, gvRemove, decide_eq_true (by simp), Res.assrt_true, Res.ok_bind, List.take_left, hdrop, Res.ok_bind, e1,
      Res.ok_bind]
    simp only
    rw [last_stride hx, Res.ok_bind, last_stride e4, Res.ok_bind, if_neg (by omega), Res.ok_bind, picking_ok hx hA, Res.ok_bind,
      e4.stride (n := A.length - 1) (by rw [List.length_append]; omega), Res.ok_bind, show A.length - 1 + 1 = A.length by omega, e4.dims, List.take_left, List.drop_left, h1, Res.ok_bind]
  · obtain ⟨i1, i2⟩ := GT.inRange_split hi
    have := h2 _ (position_lt i1) _ (position_lt i2)
    simp only at this
    rw [hrm _ (position_lt i1) _ (position_lt i2), ← GT.position_app i1.length, List.take_append_drop, zero_add, nth_pos i1, nth_pos i2] at this
    rw [this]
    congr 3
    funext k
    have := RA.insert_axis (ix.take A.length) (ix.drop A.length) k
    rw [List.take_append_drop, i1.length] at this
    rw [this]
  · rw [h3 c (fun ⟨i, hi, j, hj, k, hk, e⟩ => h4 (by rw [e]; exact hvm i hi j hj k hk)) (fun i hi k hk e => h5 (hy c (by rw [e, hrm i hi k hk]; exact own_pair e4 hi hk))), e5 c h5]

example : ∃ y m', reduceDestr (fun _ => (9 : Int)) 6 ⟨0, [2, 3], [3, 1], 6, 6, 6, -1, false⟩ 1 (Buf.ofList [1, 2, 3, 4, 5, 6]) = .ok (y, m') ∧ y.dims = [2] ∧
    m' 6 = some 6 ∧ m' 7 = some 15 := ⟨_, _, rfl, rfl, rfl, rfl⟩

/-! ### C384: reductions that go wrong -/

/-- The first axis is always refused, after the sum over it has been made. -/
theorem C384_first_axis_fails {x : RA} {D : List Nat} {d : Nat} {g : List Nat → α} [AddCommMonoid α] {m : Buf α} (hx : x.Is (d :: D) g m) (hD : D ≠ []) (junk : Nat → α) (q : Nat) :
    ¬ ∃ p, reduceDestr junk q x 0 m = .ok p := by
  rintro ⟨p, h⟩
  obtain ⟨y, m1, e1, e2, e3, e4, e5⟩ := C363_zero (α := α) hD junk q m
  rw [reduceDestr, Is.regular hx, Res.assrt_true, Res.ok_bind, hx.dims, gvRemove, decide_eq_true (by simp), Res.assrt_true, Res.ok_bind] at h
  simp only [List.take_zero, Nat.zero_add, List.drop_succ_cons, List.drop_zero, List.nil_append] at h
  rw [Res.ok_bind, e1, Res.ok_bind] at h
  simp only at h
  rw [last_stride hx, Res.ok_bind, last_stride e4, Res.ok_bind, if_pos trivial] at h
  obtain ⟨m2, _, h⟩ := Res.bind_eq_ok.1 h
  rw [view3Picking] at h
  have h' : (Res.throw : Res (RA × Buf α)) = .ok p := h
  cases h'

theorem C384_first_axis_witness_fails : reduceDestr (fun _ => (9 : Int)) 6 ⟨0, [2, 3], [3, 1], 6, 6, 6, -1, false⟩ 0 (Buf.ofList [1, 2, 3, 4, 5, 6]) = .throw := rfl

/-- An axis of one entry: the entries are doubled. -/
theorem C384_one_entry_fails : ∃ y m', reduceDestr (fun _ => (9 : Int)) 2 ⟨0, [2, 1], [1, 1], 2, 2, 2, -1, false⟩ 1 (Buf.ofList [5, 7]) = .ok (y, m') ∧ y.dims = [2] ∧
    m' 2 = some 10 ∧ m' 3 = some 14 := ⟨_, _, rfl, rfl, rfl, rfl⟩

end Cnine
