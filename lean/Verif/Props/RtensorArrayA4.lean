import Verif.Props.RtensorArrayA3

/-!
# Arrays of tensors of the old backend: products and copies along an axis
-/

namespace Cnine

variable {α : Type}

open RA

namespace RAA

/-! ### C526: products -/

/-- `add_Mprod_AA(x,y)`: products of tensors at the same index. -/
theorem C526_AA [NonUnitalNonAssocSemiring α] {X x y : RAA} {A B C D : List Nat} {f g h : List Nat → List Nat → α} {m : Buf α} (hX : X.Is D (A ++ B) f m) (hx : x.Is D (A ++ C) g m)
    (hy : y.Is D (C ++ B) h m) (kX : X.k = some (A ++ B).length) (kx : x.k = some (A ++ C).length) (ky : y.k = some (C ++ B).length)
    (hax : ∀ c, X.Owns c → ¬ x.Owns c) (hay : ∀ c, X.Owns c → ¬ y.Owns c) :
    ∃ m', addMprodAA X x y C.length C.length m = .ok m' ∧
      X.Becomes D (A ++ B) (fun ia ix => f ia ix + ((allIndices C).map fun ic => g ia (ix.take A.length ++ ic) * h ia (ic ++ ix.drop A.length)).sum) m m' := by
  rw [addMprodAA, cellwise, decide_eq_true (by rw [hx.aasize, hX.aasize]), Res.assrt_true, Res.ok_bind, decide_eq_true (by rw [hy.aasize, hX.aasize]), Res.assrt_true, Res.ok_bind,
    hX.aasize]
  apply cells_core hX
  intro ia hi m' hc hm
  have hx' := (hx.keep fun c o => hm c fun o' => hax c o' o).cellIs hi
  have hy' := (hy.keep fun c o => hm c fun o' => hay c o' o).cellIs hi
  obtain ⟨m'', h1, h2⟩ := C380_AA hc hx' hy' (fun c o o' => hax c (hX.cellOwns (position_lt hi) o) (hx.cellOwns (position_lt hi) o'))
    (fun c o o' => hay c (hX.cellOwns (position_lt hi) o) (hy.cellOwns (position_lt hi) o'))
  exact ⟨m'', by rw [cell_eq kX, Res.ok_bind, cell_eq kx, Res.ok_bind, cell_eq ky, Res.ok_bind, h1], h2⟩

/-- `add_Mprod_AT(x,y)`. -/
theorem C526_AT [NonUnitalNonAssocSemiring α] {X x y : RAA} {A B C D : List Nat} {f g h : List Nat → List Nat → α} {m : Buf α} (hX : X.Is D (A ++ B) f m) (hx : x.Is D (A ++ C) g m)
    (hy : y.Is D (B ++ C) h m) (kX : X.k = some (A ++ B).length) (kx : x.k = some (A ++ C).length) (ky : y.k = some (B ++ C).length)
    (hax : ∀ c, X.Owns c → ¬ x.Owns c) (hay : ∀ c, X.Owns c → ¬ y.Owns c) :
    ∃ m', addMprodAT X x y C.length C.length m = .ok m' ∧
      X.Becomes D (A ++ B) (fun ia ix => f ia ix + ((allIndices C).map fun ic => g ia (ix.take A.length ++ ic) * h ia (ix.drop A.length ++ ic)).sum) m m' := by
  rw [addMprodAT, cellwise, decide_eq_true (by rw [hx.aasize, hX.aasize]), Res.assrt_true, Res.ok_bind, decide_eq_true (by rw [hy.aasize, hX.aasize]), Res.assrt_true, Res.ok_bind,
    hX.aasize]
  apply cells_core hX
  intro ia hi m' hc hm
  have hx' := (hx.keep fun c o => hm c fun o' => hax c o' o).cellIs hi
  have hy' := (hy.keep fun c o => hm c fun o' => hay c o' o).cellIs hi
  obtain ⟨m'', h1, h2⟩ := C380_AT hc hx' hy' (fun c o o' => hax c (hX.cellOwns (position_lt hi) o) (hx.cellOwns (position_lt hi) o'))
    (fun c o o' => hay c (hX.cellOwns (position_lt hi) o) (hy.cellOwns (position_lt hi) o'))
  exact ⟨m'', by rw [cell_eq kX, Res.ok_bind, cell_eq kx, Res.ok_bind, cell_eq ky, Res.ok_bind, h1], h2⟩

theorem combined_eq {X : RAA} (h : X.k = some X.cdims.length) (p a b : Nat) : X.cellCombinedSize a b = (X.cellAt p).combinedSize a b := by
  unfold cellCombinedSize
  rw [h]
  rfl

/-- `cell_combined_size(a,b)`: the product of the sizes from `a` up to `b`. -/
theorem C526_combinedSize {X : RAA} {A D : List Nat} {f : List Nat → List Nat → α} {m : Buf α} (h : X.Is A D f m) (hk : X.k = some D.length) (hA : A.prod ≠ 0) (hD : D.prod ≠ 0)
    {a b : Nat} (hab : a ≤ b) (hb : b ≤ D.length) : X.cellCombinedSize a b = .ok ((D.drop a).take (b - a)).prod := by
  obtain ⟨ia, hi, _⟩ := GT.surj (Nat.pos_of_ne_zero hA)
  rw [combined_eq (by rw [h.cdims]; exact hk) (position A ia), C378_combinedSize (h.cellIs hi) hD hab hb]

theorem same_vals {r : RA} {D : List Nat} {f g : List Nat → α} {m : Buf α} (h : r.Is D f m) (h' : r.Is D g m) {ix : List Nat} (hi : InRange ix D) : f ix = g ix := by
  have := h.has ix hi
  rw [h'.has ix hi] at this
  exact (Option.some.inj this).symm

theorem no_cells {X : RAA} {A D : List Nat} {f g : List Nat → List Nat → α} {m : Buf α} (h : X.Is A D f m) (e : A.prod = 0) : X.Becomes A D g m m :=
  becomes_congr ⟨h, fun _ _ => rfl⟩ fun ia id a _ => by have := position_lt a; omega

/-- `broadcast_add_Mprod_AA(x,y)`: one second factor for all. -/
theorem C526_broadcastAA [NonUnitalNonAssocSemiring α] {X x : RAA} {y : RA} {A B C D : List Nat} {f g : List Nat → List Nat → α} {h : List Nat → α} {m : Buf α}
    (hX : X.Is D (A ++ B) f m) (hx : x.Is D (A ++ C) g m) (hy : y.Is (C ++ B) h m) (kx : x.k = some (A ++ C).length) (hD : D.prod ≠ 0)
    (hax : ∀ c, X.Owns c → ¬ x.Owns c) (hay : ∀ c, X.Owns c → ¬ y.Owns c) :
    ∃ m', broadcastMprodAA X x y C.length C.length m = .ok m' ∧
      X.Becomes D (A ++ B) (fun ia ix => f ia ix + ((allIndices C).map fun ic => g ia (ix.take A.length ++ ic) * h (ic ++ ix.drop A.length)).sum) m m' := by
  rw [broadcastMprodAA, hx.asize, hy.asize]
  split
  · next e =>
    refine ⟨m, rfl, becomes_congr ⟨hX, fun _ _ => rfl⟩ fun ia id a b => ?_⟩
    rw [List.prod_append, List.prod_append, Nat.mul_comm C.prod] at e
    exact same_vals (hX.cellIs a) (empty_sum (hX.cellIs a) (fun ix ic => g ia (ix.take A.length ++ ic) * h (ic ++ ix.drop A.length)) e).1 b
  · next e =>
    rw [not_or] at e
    obtain ⟨i0, r0, p0⟩ := GT.surj (Nat.pos_of_ne_zero hD)
    have hx0 := hx.cellIs r0
    have hl : x.cdims.length - C.length = A.length := by rw [hx.cdims]; simp
    have hk : x.k = some x.cdims.length := by rw [hx.cdims]; exact kx
    have cb := combined_back hx0 e.1
    have cf := combined_front hx0 e.1
    rw [show (x.cellAt (position D i0)).dims = x.cdims from rfl] at cb
    rw [hl, combined_eq hk (position D i0), cb, Res.ok_bind, combined_front hy e.2, Res.ok_bind, decide_eq_true rfl, Res.assrt_true, Res.ok_bind,
      decide_eq_true (by rw [hx.cdims]; simp), Res.assrt_true, Res.ok_bind, combined_eq hk (position D i0), cf, Res.ok_bind, combined_back hy e.2, Res.ok_bind,
      decide_eq_true (by rw [hX.asize, List.prod_append]), Res.assrt_true, Res.ok_bind]
    have h0 : X.asize ≠ 0 := by
      rw [hX.asize, List.prod_append]
      intro e'
      rw [List.prod_append, List.prod_append] at e
      rcases Nat.mul_eq_zero.1 e' with z | z
      · exact e.1 (by rw [z, Nat.zero_mul])
      · exact e.2 (by rw [z, Nat.mul_zero])
    rw [if_neg h0, hX.aasize]
    apply cells_core hX
    intro ia hi m' hc hm
    have hx' := (hx.keep fun c o => hm c fun o' => hax c o' o).cellIs hi
    have hy' := hy.keep fun c o => hm c fun o' => hay c o' o
    refine prod_core hc (fun i k => (x.cellAt (position D ia)).arr + (i * C.prod + k)) _ (fun ia' ic => g ia (ia' ++ ic)) (fun ic ib => h (ic ++ ib)) (fun ia' ic a1 a2 => ?_)
      (fun ic ib a1 a2 => ?_)
    · have := pair_at hx' (position_lt a1) (position_lt a2)
      rw [nth_pos a1, nth_pos a2] at this
      exact ⟨this, fun ho => hax _ (hX.cellOwns (position_lt hi) ho) (hx.cellOwns (position_lt hi) (own_pair hx' (position_lt a1) (position_lt a2)))⟩
    · have := pair_at hy' (position_lt a1) (position_lt a2)
      rw [nth_pos a1, nth_pos a2] at this
      exact ⟨this, fun ho => hay _ (hX.cellOwns (position_lt hi) ho) (own_pair hy' (position_lt a1) (position_lt a2))⟩

/-- `broadcast_add_Mprod_AT(x,y)`. -/
theorem C526_broadcastAT [NonUnitalNonAssocSemiring α] {X x : RAA} {y : RA} {A B C D : List Nat} {f g : List Nat → List Nat → α} {h : List Nat → α} {m : Buf α}
    (hX : X.Is D (A ++ B) f m) (hx : x.Is D (A ++ C) g m) (hy : y.Is (B ++ C) h m) (kx : x.k = some (A ++ C).length) (hD : D.prod ≠ 0)
    (hax : ∀ c, X.Owns c → ¬ x.Owns c) (hay : ∀ c, X.Owns c → ¬ y.Owns c) :
    ∃ m', broadcastMprodAT X x y C.length C.length m = .ok m' ∧
      X.Becomes D (A ++ B) (fun ia ix => f ia ix + ((allIndices C).map fun ic => g ia (ix.take A.length ++ ic) * h (ix.drop A.length ++ ic)).sum) m m' := by
  rw [broadcastMprodAT, hx.asize, hy.asize]
  split
  · next e =>
    refine ⟨m, rfl, becomes_congr ⟨hX, fun _ _ => rfl⟩ fun ia id a b => ?_⟩
    rw [List.prod_append, List.prod_append] at e
    exact same_vals (hX.cellIs a) (empty_sum (hX.cellIs a) (fun ix ic => g ia (ix.take A.length ++ ic) * h (ix.drop A.length ++ ic)) e).1 b
  · next e =>
    rw [not_or] at e
    obtain ⟨i0, r0, p0⟩ := GT.surj (Nat.pos_of_ne_zero hD)
    have hx0 := hx.cellIs r0
    have hl : x.cdims.length - C.length = A.length := by rw [hx.cdims]; simp
    have hl' : y.dims.length - C.length = B.length := by rw [hy.dims]; simp
    have hk : x.k = some x.cdims.length := by rw [hx.cdims]; exact kx
    have cb := combined_back hx0 e.1
    have cf := combined_front hx0 e.1
    rw [show (x.cellAt (position D i0)).dims = x.cdims from rfl] at cb
    rw [hl, hl', combined_eq hk (position D i0), cb, Res.ok_bind, combined_back hy e.2, Res.ok_bind, decide_eq_true rfl, Res.assrt_true, Res.ok_bind,
      decide_eq_true (by rw [hx.cdims]; simp), Res.assrt_true, Res.ok_bind, combined_eq hk (position D i0), cf, Res.ok_bind,
      decide_eq_true (by rw [hy.dims]; simp), Res.assrt_true, Res.ok_bind, combined_front hy e.2, Res.ok_bind,
      decide_eq_true (by rw [hX.asize, List.prod_append]), Res.assrt_true, Res.ok_bind]
    have h0 : X.asize ≠ 0 := by
      rw [hX.asize, List.prod_append]
      intro e'
      rw [List.prod_append, List.prod_append] at e
      rcases Nat.mul_eq_zero.1 e' with z | z
      · exact e.1 (by rw [z, Nat.zero_mul])
      · exact e.2 (by rw [z, Nat.zero_mul])
    rw [if_neg h0, hX.aasize]
    apply cells_core hX
    intro ia hi m' hc hm
    have hx' := (hx.keep fun c o => hm c fun o' => hax c o' o).cellIs hi
    have hy' := hy.keep fun c o => hm c fun o' => hay c o' o
    refine prod_core hc (fun i k => (x.cellAt (position D ia)).arr + (i * C.prod + k)) _ (fun ia' ic => g ia (ia' ++ ic)) (fun ic ib => h (ib ++ ic)) (fun ia' ic a1 a2 => ?_)
      (fun ic ib a1 a2 => ?_)
    · have := pair_at hx' (position_lt a1) (position_lt a2)
      rw [nth_pos a1, nth_pos a2] at this
      exact ⟨this, fun ho => hax _ (hX.cellOwns (position_lt hi) ho) (hx.cellOwns (position_lt hi) (own_pair hx' (position_lt a1) (position_lt a2)))⟩
    · have := pair_at hy' (position_lt a2) (position_lt a1)
      rw [nth_pos a1, nth_pos a2] at this
      rw [Nat.add_comm (position C ic)]
      exact ⟨this, fun ho => hay _ (hX.cellOwns (position_lt hi) ho) (own_pair hy' (position_lt a2) (position_lt a1))⟩

/-! ### C527: the product on the GPU -/

/-- Only the first tensor of the array gets its product. -/
theorem C527_first_fails [CommSemiring α] {X x : RAA} {y : RA} {A B C D : List Nat} {f g : List Nat → List Nat → α} {h : List Nat → α} {m : Buf α}
    (hX : X.Is D (A ++ B) f m) (hx : x.Is D (A ++ C) g m) (hy : y.Is (C ++ B) h m) (kx : x.k = some (A ++ C).length) (hD : D.prod ≠ 0)
    (hax : ∀ c, X.Owns c → ¬ x.Owns c) (hay : ∀ c, X.Owns c → ¬ y.Owns c) :
    ∃ m', gBroadcastMprodAA X x y C.length C.length m = .ok m' ∧
      X.Becomes D (A ++ B) (fun ia ix => if ∀ i ∈ ia, i = 0 then f ia ix + ((allIndices C).map fun ic => g ia (ix.take A.length ++ ic) * h (ic ++ ix.drop A.length)).sum else f ia ix) m m' := by
  obtain ⟨i0, r0, p0⟩ := GT.surj (Nat.pos_of_ne_zero hD)
  have hz : ∀ ia, InRange ia D → ((∀ i ∈ ia, i = 0) ↔ ia = i0) := by
    have key : ∀ (E ia : List Nat), E.prod ≠ 0 → InRange ia E → ((∀ i ∈ ia, i = 0) ↔ position E ia = 0) := by
      intro E ia he hi
      induction hi with
      | nil => simp [position]
      | @cons i e is es h1 h2 ih =>
        rw [List.prod_cons] at he
        have hp : es.prod ≠ 0 := fun z => he (by rw [z, Nat.mul_zero])
        have := ih hp
        simp only [List.forall_mem_cons, this, position]
        constructor
        · rintro ⟨rfl, e⟩; rw [e]; simp
        · intro e
          have e1 := Nat.eq_zero_of_add_eq_zero_left e
          have e2 := Nat.eq_zero_of_add_eq_zero_right e
          exact ⟨(Nat.mul_eq_zero.1 e2).resolve_right hp, e1⟩
    intro ia hi
    rw [key D ia hD hi]
    exact ⟨fun e => C362_distinct hi r0 (e.trans p0.symm), fun e => e ▸ p0⟩
  have hc := hX.cellIs r0
  have hx0 := hx.cellIs r0
  have ax : (X.cellAt (position D i0)).Apart (x.cellAt (position D i0)) := fun c o o' => hax c (hX.cellOwns (position_lt r0) o) (hx.cellOwns (position_lt r0) o')
  have ay : (X.cellAt (position D i0)).Apart y := fun c o o' => hay c (hX.cellOwns (position_lt r0) o) o'
  obtain ⟨m', h1, h2⟩ := C380_AA hc hx0 hy ax ay
  rw [← C473_AA_same hc hx0 hy ax ay] at h1
  refine ⟨m', ?_, becomes_congr (one_cell hX r0 h2) fun ia id a _ => ?_⟩
  · rw [← h1, gBroadcastMprodAA, gMprodAA, hx.asize, hx0.asize]
    by_cases e : (A ++ C).prod = 0 ∨ y.asize = 0
    · rw [if_pos e, if_pos e]
    · rw [if_neg e, if_neg e]
      have hk : x.k = some x.cdims.length := by rw [hx.cdims]; exact kx
      have ea : ∀ p, p = 0 → X.base.arr + p * X.cellstride = X.base.arr := fun p e => by rw [e]; simp
      have eb : ∀ p, p = 0 → x.base.arr + p * x.cellstride = x.base.arr := fun p e => by rw [e]; simp
      have e1 : (X.cellAt (position D i0)).arr = X.base.arr := ea _ p0
      have e2 : (x.cellAt (position D i0)).arr = x.base.arr := eb _ p0
      simp only [combined_eq hk (position D i0)]
      rw [e1, e2]
      have e3 : (x.cellAt (position D i0)).dims = x.cdims := rfl
      have e4 : (X.cellAt (position D i0)).asize = X.asize := rfl
      rw [e3, e4]
      rw [not_or] at e
      have hle : C.length ≤ x.cdims.length := by rw [hx.cdims]; simp
      have cb := combined_back hx0 e.1
      have hl : x.cdims.length - C.length = A.length := by rw [hx.cdims]; simp
      rw [e3] at cb
      rw [decide_eq_true hle, Res.assrt_true, Res.ok_bind, hl, cb, Res.ok_bind, Res.ok_bind, combined_front hy (by rw [← hy.asize]; exact e.2), Res.ok_bind, Res.ok_bind,
        decide_eq_true rfl, Res.assrt_true, Res.ok_bind, Res.ok_bind, decide_eq_true rfl, Res.assrt_true, Res.ok_bind]
  · by_cases e : ia = i0
    · subst e
      simp only [if_true]
      rw [if_pos ((hz _ a).2 rfl)]
    · rw [if_neg e, if_neg fun z => e ((hz _ a).1 z)]

/-- Two matrices, 2 by 2, at `q`. -/
def two (q : Nat) : RAA := ⟨⟨q, [2, 2, 2], [32, 2, 1], 64, 64, 64, -1, false⟩, some 2, -1, [2], [2, 2], [1], [2, 1], 2, 4, 32⟩

theorem two_is (q : Nat) (hq : q + 64 ≤ 200) : (two q).Is [2] ([2] ++ [2]) (fun ia id => ((q + (position [2] ia * 32 + position [2, 2] id) : Nat) : Int)) (fun c => if c < 200 then some (c : Int) else none) := by
  refine ⟨by simp, by simp, rfl, rfl, rfl, fun _ => rfl, Nat.le_refl 64, rfl, rfl, rfl, rfl, rfl, rfl, rfl, fun c hc => ?_, fun ia id a b => ?_⟩
  · have : c < 64 := hc
    show (if q + c < 200 then _ else _ : Option Int).isSome
    rw [if_pos (by omega)]; rfl
  · have : _ < 64 := lt_of a b
    exact if_pos (show q + _ < 200 by omega)

example : (match broadcastMprodAA (two 0) (two 64) ⟨128, [2, 2], [2, 1], 4, 32, 32, -1, false⟩ 1 1 (fun c => if c < 200 then some (c : Int) else none),
      gBroadcastMprodAA (two 0) (two 64) ⟨128, [2, 2], [2, 1], 4, 32, 32, -1, false⟩ 1 1 (fun c => if c < 200 then some (c : Int) else none) with
    | .ok m', .ok m'' => (m' 0 == some (64 * 128 + 65 * 130) && m' 33 == some (33 + 96 * 129 + 97 * 131) && m'' 0 == m' 0 && m'' 33 == some 33)
    | _, _ => false) = true := by decide +kernel

example : (match addMprodAT (two 0) (two 64) (two 128) 1 1 (fun c => if c < 200 then some (c : Int) else none) with
    | .ok m' => m' 33 == some (33 + 96 * 162 + 97 * 163)
    | _ => false) = true := by decide +kernel

/-! ### C528: copies that double -/

/-- What holds when the first `e` tensors are done. -/
def Done (X : RAA) (n c P : Nat) (G : Nat → α) (m : Buf α) (e : Nat) (m' : Buf α) : Prop :=
  (∀ i, i < n * c → (m' (X.base.arr + i)).isSome) ∧ (∀ j, j < e → ∀ i, i < P → m' (X.base.arr + (j * c + i)) = some (G i)) ∧
    ∀ b, (∀ i, i < n * c → b ≠ X.base.arr + i) → m' b = m b

theorem Done.more {X : RAA} {n c P : Nat} {G : Nat → α} {m m' : Buf α} {e k : Nat} (h : Done X n c P G m e m') (hP : P ≤ c) (hk : k ≤ e) (hn : e + k ≤ n) :
    ∃ m'', stdCopy m' X.base.arr (k * c) (X.base.arr + e * c) = .ok m'' ∧ Done X n c P G m (e + k) m'' := by
  obtain ⟨h1, h2, h3⟩ := h
  have hkc : k * c ≤ e * c := Nat.mul_le_mul_right c hk
  have hnc : e * c + k * c ≤ n * c := by rw [← Nat.add_mul]; exact Nat.mul_le_mul_right c hn
  have hv : ∀ i, i < n * c → ∃ v, m' (X.base.arr + i) = some v := fun i hi => Option.isSome_iff_exists.1 (h1 i hi)
  by_cases hz : k * c = 0
  · have hm : stdCopy m' X.base.arr (k * c) (X.base.arr + e * c) = .ok m' := by
      rw [hz, stdCopy, if_neg (by omega)]; rfl
    refine ⟨m', hm, h1, fun j hj i hi => ?_, h3⟩
    rcases Nat.mul_eq_zero.1 hz with z | z
    · exact h2 j (by omega) i hi
    · omega
  · obtain ⟨v0, _⟩ := hv 0 (by omega)
    obtain ⟨m'', e1, e2, e3⟩ := stdCopy_ok m' X.base.arr (k * c) (X.base.arr + e * c) (fun i => (m' (X.base.arr + i)).getD v0)
      (fun i hi => by rw [Nat.add_assoc]; exact h1 _ (by omega))
      (fun i hi => by obtain ⟨v, hv⟩ := hv i (by omega); rw [hv]; rfl)
      (fun i hi j hj => by omega)
    refine ⟨m'', e1, fun i hi => ?_, fun j hj i hi => ?_, fun b hb => ?_⟩
    · by_cases hin : e * c ≤ i ∧ i < e * c + k * c
      · have := e2 (i - e * c) (by omega)
        rw [show X.base.arr + e * c + (i - e * c) = X.base.arr + i by omega] at this
        rw [this]; rfl
      · rw [e3 _ fun t ht => by omega]; exact h1 i hi
    · rcases Nat.lt_or_ge j e with hj' | hj'
      · have : (j + 1) * c ≤ e * c := Nat.mul_le_mul_right c hj'
        rw [Nat.add_mul] at this
        rw [e3 _ fun t ht => by omega, h2 j hj' i hi]
      · obtain ⟨t, rfl⟩ : ∃ t, j = e + t := ⟨j - e, by omega⟩
        have : (t + 1) * c ≤ k * c := Nat.mul_le_mul_right c (by omega)
        rw [Nat.add_mul] at this
        have := e2 (t * c + i) (by omega)
        rw [show X.base.arr + e * c + (t * c + i) = X.base.arr + ((e + t) * c + i) by rw [Nat.add_mul]; omega] at this
        rw [this, h2 t (by omega) i hi]
        rfl
    · rw [e3 b fun t ht => by rw [Nat.add_assoc]; exact hb _ (by omega), h3 b hb]

theorem doubling_ok {X : RAA} {n c P : Nat} {G : Nat → α} {m : Buf α} (hP : P ≤ c) (hc : X.cellstride = c) : ∀ s e (m' : Buf α), Done X n c P G m e m' → e * 2 ^ s ≤ n →
    ∃ m'', doubling X s e m' = .ok (e * 2 ^ s, m'') ∧ Done X n c P G m (e * 2 ^ s) m'' := by
  intro s
  induction s with
  | zero => intro e m' h _; exact ⟨m', by simp [doubling], by simpa using h⟩
  | succ s ih =>
    intro e m' h hn
    have hp : 0 < 2 ^ s := Nat.two_pow_pos s
    have e0 : e * 2 ^ (s + 1) = (e * 2) * 2 ^ s := by rw [Nat.pow_succ]; ring
    have hle : e * 2 ≤ n := by
      have := Nat.le_mul_of_pos_right (e * 2) hp
      rw [e0] at hn; omega
    obtain ⟨m1, h1, h2⟩ := h.more hP (Nat.le_refl e) (by omega)
    rw [show e + e = e * 2 by omega] at h2
    obtain ⟨m2, h3, h4⟩ := ih (e * 2) m1 h2 (by rw [← e0]; exact hn)
    refine ⟨m2, ?_, by rw [e0]; exact h4⟩
    rw [doubling, hc, h1, Res.ok_bind, h3, e0]

theorem powers_ok (n : Nat) : ∀ fuel e s, n < e * 2 ^ fuel → ∃ t, powers n e s fuel = s + t ∧ n < e * 2 ^ t ∧ (0 < t → e * 2 ^ (t - 1) ≤ n) := by
  intro fuel
  induction fuel with
  | zero => intro e s h; exact ⟨0, rfl, h, by omega⟩
  | succ fuel ih =>
    intro e s h
    rw [powers]
    split
    · next hle =>
      obtain ⟨t, h1, h2, h3⟩ := ih (e * 2) (s + 1) (by rw [Nat.pow_succ] at h; calc n < e * (2 ^ fuel * 2) := h
                                                            _ = e * 2 * 2 ^ fuel := by ring)
      refine ⟨t + 1, by rw [h1]; omega, by rw [Nat.pow_succ]; calc n < e * 2 * 2 ^ t := h2
                                                            _ = e * (2 ^ t * 2) := by ring, fun _ => ?_⟩
      rw [Nat.add_sub_cancel]
      cases t with
      | zero => simpa using hle
      | succ t =>
        have := h3 (by omega)
        rw [Nat.add_sub_cancel] at this
        rw [Nat.pow_succ]
        calc e * (2 ^ t * 2) = e * 2 * 2 ^ t := by ring
          _ ≤ n := this
    · next hle => exact ⟨0, rfl, by simp; omega, by omega⟩

/-- `broadcast_copy(x)` on the GPU: every tensor becomes `x`. -/
theorem C528_gBroadcastCopy {X : RAA} {A D : List Nat} {f : List Nat → List Nat → α} {m : Buf α} (h : X.Is A D f m) {x : RA} {g : List Nat → α} (hx : x.Is D g m)
    (ha : ∀ c, X.Owns c → ¬ x.Owns c) : ∃ m', X.gBroadcastCopy x m = .ok m' ∧ X.Becomes A D (fun _ => g) m m' := by
  rw [gBroadcastCopy, decide_eq_true (by rw [hx.dims, h.cdims]), Res.assrt_true, Res.ok_bind, h.aasize]
  split
  · next e => exact ⟨m, rfl, no_cells h e⟩
  · next e =>
    obtain ⟨hc1, hc2⟩ := cells_pos D
    have hpos : 0 < A.prod := Nat.pos_of_ne_zero e
    obtain ⟨t, t1, t2, t3⟩ := powers_ok A.prod (A.prod + 1) 1 0 (by
      rw [Nat.one_mul]
      exact Nat.lt_of_lt_of_le (Nat.lt_two_pow_self) (Nat.pow_le_pow_right (by omega) (by omega)))
    have ht : 0 < t := by
      rcases Nat.eq_zero_or_pos t with z | z
      · rw [z] at t2; exact absurd t2 (by simpa using e)
      · exact z
    have t3 := t3 ht
    rw [Nat.one_mul] at t2 t3
    rw [Nat.zero_add] at t1
    have hown : ∀ i, i < D.prod → X.Owns (X.base.arr + i) := fun i hi => h.owns (by
      have : 1 * cells D ≤ A.prod * cells D := Nat.mul_le_mul_right _ hpos
      omega)
    have hcl : D.prod ≤ A.prod * cells D := by
      have : 1 * cells D ≤ A.prod * cells D := Nat.mul_le_mul_right _ hpos
      omega
    obtain ⟨m1, e1, e2, e3⟩ := stdCopy_ok m x.arr D.prod X.base.arr (RA.flat D g (g []))
      (fun i hi => h.pad i (by omega)) (fun i hi => hx.at (g []) hi) (fun i hi j hj e => ha _ (hown i hi) (e ▸ hx.owns hj))
    have hd : Done X A.prod (cells D) D.prod (RA.flat D g (g [])) m 1 m1 := by
      refine ⟨fun i hi => ?_, fun j hj i hi => ?_, fun b hb => e3 b fun i hi => hb i (by omega)⟩
      · by_cases hin : i < D.prod
        · rw [e2 i hin]; rfl
        · rw [e3 _ fun t ht => by omega]; exact h.pad i hi
      · rw [show j = 0 by omega, Nat.zero_mul, Nat.zero_add, e2 i hi]
    obtain ⟨m2, d1, d2⟩ := doubling_ok hc2 h.cellstride (t - 1) 1 m1 hd (by rw [Nat.one_mul]; exact t3)
    rw [Nat.one_mul] at d1 d2
    have htwo : 2 ^ t = 2 ^ (t - 1) * 2 := by rw [← Nat.pow_succ]; congr 1; omega
    obtain ⟨m3, d3, d4⟩ := d2.more hc2 (k := A.prod - 2 ^ (t - 1)) (by omega) (by omega)
    rw [show 2 ^ (t - 1) + (A.prod - 2 ^ (t - 1)) = A.prod by omega] at d4
    refine ⟨m3, ?_, h.mk' d4.1 fun ia id a b => ?_, fun c hc => d4.2.2 c fun i hi e => hc (e ▸ h.owns hi)⟩
    · rw [decide_eq_true (by rw [hx.asize, h.asize]), Res.assrt_true, Res.ok_bind, t1, hx.asize, e1, Res.ok_bind, d1, Res.ok_bind]
      simp only
      rw [h.cellstride, d3]
    · rw [d4.2.1 _ (position_lt a) _ (position_lt b), RA.flat_pos b]

example : (match ex.gBroadcastCopy ⟨200, [3], [1], 3, 32, 32, -1, false⟩ (fun c => if c < 128 then some (c : Int) else if c < 232 then some (1000 + c) else none) with
    | .ok m' => ((List.range 4).map fun i => (m' (32 * i), m' (2 + 32 * i))) == [(some 1200, some 1202), (some 1200, some 1202), (some 1200, some 1202), (some 1200, some 1202)]
    | _ => false) = true := by decide +kernel

end RAA

end Cnine
