import Verif.Props.CtensorArrayA2

/-!
# C566, C567: products of arrays of complex tensors of the old backend
-/

namespace Cnine

variable {α : Type}

open RA

namespace CAA

/-! ### C566: products of the cells with equal numbers -/

/-- `add_Mprod_AA(x,y)`: the product of the cells with the same number. -/
theorem C566_AA [Ring α] {sel : Nat} (hsel : sel ≤ 3) {X x y : CAA} {A B C E : List Nat} {F G H : List Nat → List Nat → Cx α} {m : Buf α} (hX : X.Is E (A ++ B) F m)
    (hx : x.Is E (A ++ C) G m) (hy : y.Is E (C ++ B) H m) {k1 k2 k3 : Nat} (kX : X.re.k = some k1) (kx : x.re.k = some k2) (ky : y.re.k = some k3)
    (hax : ∀ c, X.Owns c → ¬ x.Owns c) (hay : ∀ c, X.Owns c → ¬ y.Owns c) :
    ∃ m', cellwise (fun r x y m => CA.addMprodAA sel r x y C.length C.length m) X x y m = .ok m' ∧
      X.Becomes E (A ++ B) (fun ia ix => F ia ix + ((allIndices C).map fun ic => CA.selMul sel (G ia (ix.take A.length ++ ic)) (H ia (ic ++ ix.drop A.length))).sum) m m' := by
  rw [cellwise, decide_eq_true (by rw [hX.re.aasize, hx.re.aasize]), Res.assrt_true, Res.ok_bind, decide_eq_true (by rw [hX.re.aasize, hy.re.aasize]), Res.assrt_true, Res.ok_bind, hX.re.aasize]
  apply ccells_core hX
  intro ia hi m' hc hm
  have hx' := (hx.keep fun c o => hm c fun o' => hax c o' o).cellIs hi
  have hy' := (hy.keep fun c o => hm c fun o' => hay c o' o).cellIs hi
  obtain ⟨m'', h1, h2⟩ := CA.C489_AA hsel hc hx' hy' (fun c o o' => hax c (hX.cellOwns (position_lt hi) o) (hx.cellOwns (position_lt hi) o'))
    (fun c o o' => hay c (hX.cellOwns (position_lt hi) o) (hy.cellOwns (position_lt hi) o'))
  exact ⟨m'', by rw [cell_eq kX, Res.ok_bind, cell_eq kx, Res.ok_bind, cell_eq ky, Res.ok_bind, h1], h2⟩

/-- `add_Mprod_AT(x,y)`. -/
theorem C566_AT [Ring α] {sel : Nat} (hsel : sel ≤ 3) {X x y : CAA} {A B C E : List Nat} {F G H : List Nat → List Nat → Cx α} {m : Buf α} (hX : X.Is E (A ++ B) F m)
    (hx : x.Is E (A ++ C) G m) (hy : y.Is E (B ++ C) H m) {k1 k2 k3 : Nat} (kX : X.re.k = some k1) (kx : x.re.k = some k2) (ky : y.re.k = some k3)
    (hax : ∀ c, X.Owns c → ¬ x.Owns c) (hay : ∀ c, X.Owns c → ¬ y.Owns c) :
    ∃ m', cellwise (fun r x y m => CA.addMprodAT sel r x y C.length C.length m) X x y m = .ok m' ∧
      X.Becomes E (A ++ B) (fun ia ix => F ia ix + ((allIndices C).map fun ic => CA.selMul sel (G ia (ix.take A.length ++ ic)) (H ia (ix.drop A.length ++ ic))).sum) m m' := by
  rw [cellwise, decide_eq_true (by rw [hX.re.aasize, hx.re.aasize]), Res.assrt_true, Res.ok_bind, decide_eq_true (by rw [hX.re.aasize, hy.re.aasize]), Res.assrt_true, Res.ok_bind, hX.re.aasize]
  apply ccells_core hX
  intro ia hi m' hc hm
  have hx' := (hx.keep fun c o => hm c fun o' => hax c o' o).cellIs hi
  have hy' := (hy.keep fun c o => hm c fun o' => hay c o' o).cellIs hi
  obtain ⟨m'', h1, h2⟩ := CA.C489_AT hsel hc hx' hy' (fun c o o' => hax c (hX.cellOwns (position_lt hi) o) (hx.cellOwns (position_lt hi) o'))
    (fun c o o' => hay c (hX.cellOwns (position_lt hi) o) (hy.cellOwns (position_lt hi) o'))
  exact ⟨m'', by rw [cell_eq kX, Res.ok_bind, cell_eq kx, Res.ok_bind, cell_eq ky, Res.ok_bind, h1], h2⟩

/-- Cells of a copy cannot be multiplied. -/
theorem C561_cellwise_fails (op : CA → CA → CA → Buf α → Res (Buf α)) {X x y Y : CAA} {A : List Nat} (junk : Nat → α) (q : Nat) {m m' m'' : Buf α} (h : copy junk q x m = .ok (Y, m'))
    (hX : X.re.aasize = A.prod) (hY : Y.re.aasize = A.prod) (hy : y.re.aasize = A.prod) (hA : A.prod ≠ 0) {k : Nat} (kX : X.re.k = some k) : cellwise op X Y y m'' = .ub := by
  rw [cellwise, decide_eq_true (by rw [hX, hY]), Res.assrt_true, Res.ok_bind, decide_eq_true (by rw [hX, hy]), Res.assrt_true, Res.ok_bind, hX]
  obtain ⟨n, hn⟩ : ∃ n, A.prod = n + 1 := ⟨A.prod - 1, by omega⟩
  rw [hn]
  show (Res.forM (List.range (n + 1)) m'' _) = _
  rw [List.range_succ_eq_map, Res.forM_cons]
  simp only
  rw [cell_eq kX, Res.ok_bind, C561_copy_fails junk q h]
  rfl

/-! ### C567: one second factor for all cells -/

theorem accSel_eq [Ring α] {sel : Nat} (h : sel ≤ 3) (t a b : Cx α) : accSel sel t a b = CA.selAcc sel t a b := by
  rw [CA.selAcc_eq h]
  have : sel = 0 ∨ sel = 1 ∨ sel = 2 ∨ sel = 3 := by omega
  rcases this with rfl | rfl | rfl | rfl <;>
    simp only [accSel, CA.selMul, Nat.reduceEqDiff, or_self, or_true, true_or, or_false, false_or, if_true, if_false, zero_ne_one, OfNat.zero_ne_ofNat, OfNat.one_ne_ofNat,
      OfNat.ofNat_ne_one]

theorem prodCell_eq [Ring α] {sel : Nat} (h : sel ≤ 3) (X x : CAA) (y : CA) (I J K a : Nat) (q : Nat → Nat → Nat) (m : Buf α) :
    prodCell sel X x y I J K a q m = CA.mprodLoop sel (X.cellAt a) (x.cellAt a) y I J K (fun i k => i * K + k) q m := by
  unfold prodCell CA.mprodLoop
  simp only [accSel_eq h]
  rfl

theorem same_vals {r : CA} {D : List Nat} {F G : List Nat → Cx α} {m : Buf α} (h : r.Is D F m) (h' : r.Is D G m) {ix : List Nat} (hi : InRange ix D) : F ix = G ix := by
  have a := h.has ix hi
  rw [(h'.has ix hi).1, (h'.has ix hi).2] at a
  obtain ⟨a1, a2⟩ := a
  have a1 := Option.some.inj a1
  have a2 := Option.some.inj a2
  cases hF : F ix; cases hG : G ix
  rw [hF, hG] at a1 a2
  simp only at a1 a2
  rw [a1, a2]

/-- `broadcast_add_Mprod_AA(x,y)`. -/
theorem C567_AA [Ring α] {sel : Nat} (hsel : sel ≤ 3) {X x : CAA} {y : CA} {A B C D : List Nat} {F G : List Nat → List Nat → Cx α} {H : List Nat → Cx α} {m : Buf α}
    (hX : X.Is D (A ++ B) F m) (hx : x.Is D (A ++ C) G m) (hy : y.Is (C ++ B) H m) (kx : x.re.k = some (A ++ C).length) (hD : D.prod ≠ 0)
    (hax : ∀ c, X.Owns c → ¬ x.Owns c) (hay : ∀ c, X.Owns c → ¬ y.Owns c) :
    ∃ m', broadcastMprodAA sel X x y C.length C.length m = .ok m' ∧
      X.Becomes D (A ++ B) (fun ia ix => F ia ix + ((allIndices C).map fun ic => CA.selMul sel (G ia (ix.take A.length ++ ic)) (H (ic ++ ix.drop A.length))).sum) m m' := by
  rw [broadcastMprodAA, hx.re.asize, hy.asize]
  split
  · next e =>
    refine ⟨m, rfl, becomes_congr ⟨hX, fun _ _ => rfl⟩ fun ia id a b => ?_⟩
    rw [List.prod_append, List.prod_append, Nat.mul_comm C.prod] at e
    exact same_vals (hX.cellIs a) (CA.cempty (hX.cellIs a) (fun ix ic => CA.selMul sel (G ia (ix.take A.length ++ ic)) (H (ic ++ ix.drop A.length))) e).1 b
  · next e =>
    rw [not_or] at e
    obtain ⟨i0, r0, p0⟩ := GT.surj (Nat.pos_of_ne_zero hD)
    have hx0 := hx.re.cellIs r0
    have hl : x.re.cdims.length - C.length = A.length := by rw [hx.re.cdims]; simp
    have hk : x.re.k = some x.re.cdims.length := by rw [hx.re.cdims]; exact kx
    have cb := combined_back hx0 e.1
    have cf := combined_front hx0 e.1
    rw [show (x.re.cellAt (position D i0)).dims = x.re.cdims from rfl] at cb
    rw [hl, RAA.combined_eq hk (position D i0), cb, Res.ok_bind, combined_front hy.re e.2, Res.ok_bind, decide_eq_true rfl, Res.assrt_true, Res.ok_bind,
      decide_eq_true (by rw [hx.re.cdims]; simp), Res.assrt_true, Res.ok_bind, RAA.combined_eq hk (position D i0), cf, Res.ok_bind,
      show y.re.combinedSize C.length y.dims.length = _ from combined_back hy.re e.2, Res.ok_bind,
      decide_eq_true (by rw [hX.re.asize, List.prod_append]), Res.assrt_true, Res.ok_bind]
    have h0 : X.re.asize ≠ 0 := by
      rw [hX.re.asize, List.prod_append]
      intro e'
      rw [List.prod_append, List.prod_append] at e
      rcases Nat.mul_eq_zero.1 e' with z | z
      · exact e.1 (by rw [z, Nat.zero_mul])
      · exact e.2 (by rw [z, Nat.mul_zero])
    rw [if_neg h0, hX.re.aasize]
    apply ccells_core hX
    intro ia hi m' hc hm
    have hx' := (hx.keep fun c o => hm c fun o' => hax c o' o).cellIs hi
    have hy' := hy.keep fun c o => hm c fun o' => hay c o' o
    rw [prodCell_eq hsel]
    exact CA.cprod hsel hc hx' hy' (fun c o o' => hax c (hX.cellOwns (position_lt hi) o) (hx.cellOwns (position_lt hi) o')) (fun c o o' => hay c (hX.cellOwns (position_lt hi) o) o') _ _
      (fun ia ic => ia ++ ic) (fun ic ib => ic ++ ib)
      (fun ia ic a1 a2 => ⟨GT.inRange_app a1 a2, (GT.position_app a1.length).symm⟩) (fun ic ib a1 a2 => ⟨GT.inRange_app a1 a2, (GT.position_app a1.length).symm⟩)

/-- `broadcast_add_Mprod_AT(x,y)`. -/
theorem C567_AT [Ring α] {sel : Nat} (hsel : sel ≤ 3) {X x : CAA} {y : CA} {A B C D : List Nat} {F G : List Nat → List Nat → Cx α} {H : List Nat → Cx α} {m : Buf α}
    (hX : X.Is D (A ++ B) F m) (hx : x.Is D (A ++ C) G m) (hy : y.Is (B ++ C) H m) (kx : x.re.k = some (A ++ C).length) (hD : D.prod ≠ 0)
    (hax : ∀ c, X.Owns c → ¬ x.Owns c) (hay : ∀ c, X.Owns c → ¬ y.Owns c) :
    ∃ m', broadcastMprodAT sel X x y C.length C.length m = .ok m' ∧
      X.Becomes D (A ++ B) (fun ia ix => F ia ix + ((allIndices C).map fun ic => CA.selMul sel (G ia (ix.take A.length ++ ic)) (H (ix.drop A.length ++ ic))).sum) m m' := by
  rw [broadcastMprodAT, hx.re.asize, hy.asize]
  split
  · next e =>
    refine ⟨m, rfl, becomes_congr ⟨hX, fun _ _ => rfl⟩ fun ia id a b => ?_⟩
    rw [List.prod_append, List.prod_append] at e
    exact same_vals (hX.cellIs a) (CA.cempty (hX.cellIs a) (fun ix ic => CA.selMul sel (G ia (ix.take A.length ++ ic)) (H (ix.drop A.length ++ ic))) e).1 b
  · next e =>
    rw [not_or] at e
    obtain ⟨i0, r0, p0⟩ := GT.surj (Nat.pos_of_ne_zero hD)
    have hx0 := hx.re.cellIs r0
    have hl : x.re.cdims.length - C.length = A.length := by rw [hx.re.cdims]; simp
    have hl' : y.dims.length - C.length = B.length := by rw [hy.dims]; simp
    have hk : x.re.k = some x.re.cdims.length := by rw [hx.re.cdims]; exact kx
    have cb := combined_back hx0 e.1
    have cf := combined_front hx0 e.1
    rw [show (x.re.cellAt (position D i0)).dims = x.re.cdims from rfl] at cb
    rw [hl, hl', RAA.combined_eq hk (position D i0), cb, Res.ok_bind, show y.re.combinedSize B.length y.dims.length = _ from combined_back hy.re e.2, Res.ok_bind,
      decide_eq_true rfl, Res.assrt_true, Res.ok_bind,
      decide_eq_true (by rw [hx.re.cdims]; simp), Res.assrt_true, Res.ok_bind, RAA.combined_eq hk (position D i0), cf, Res.ok_bind,
      decide_eq_true (by rw [hy.dims]; simp), Res.assrt_true, Res.ok_bind, combined_front hy.re e.2, Res.ok_bind,
      decide_eq_true (by rw [hX.re.asize, List.prod_append]), Res.assrt_true, Res.ok_bind]
    have h0 : X.re.asize ≠ 0 := by
      rw [hX.re.asize, List.prod_append]
      intro e'
      rw [List.prod_append, List.prod_append] at e
      rcases Nat.mul_eq_zero.1 e' with z | z
      · exact e.1 (by rw [z, Nat.zero_mul])
      · exact e.2 (by rw [z, Nat.zero_mul])
    rw [if_neg h0, hX.re.aasize]
    apply ccells_core hX
    intro ia hi m' hc hm
    have hx' := (hx.keep fun c o => hm c fun o' => hax c o' o).cellIs hi
    have hy' := hy.keep fun c o => hm c fun o' => hay c o' o
    rw [prodCell_eq hsel]
    refine CA.cprod hsel hc hx' hy' (fun c o o' => hax c (hX.cellOwns (position_lt hi) o) (hx.cellOwns (position_lt hi) o')) (fun c o o' => hay c (hX.cellOwns (position_lt hi) o) o') _ _
      (fun ia ic => ia ++ ic) (fun ic ib => ib ++ ic)
      (fun ia ic a1 a2 => ⟨GT.inRange_app a1 a2, (GT.position_app a1.length).symm⟩) (fun ic ib a1 a2 => ⟨GT.inRange_app a2 a1, ?_⟩)
    rw [GT.position_app a2.length, Nat.add_comm]

/-- A 2 × 2 matrix at 200 and 204; `ex` as two rows times the matrix, added at 256 (an array of two vectors). -/
example : (match broadcastMprodAA 1 exUp ex ⟨200, 204, [2, 2], [2, 1], 4, 8, 4, -1, false⟩ 1 1 (fun c => if c < 128 ∨ (200 ≤ c ∧ c < 208) ∨ (256 ≤ c ∧ c < 384) then some (c : Int) else none) with
    | .ok m' => (m' 256 == some (256 + ((0 * 200 + 64 * 204) + (1 * 202 + 65 * 206))) && m' 320 == some (320 + ((0 * 204 - 64 * 200) + (1 * 206 - 65 * 202))) && m' 258 == some 258)
    | _ => false) = true := by decide +kernel

/-- The same with one row for each cell, and cells multiplied with themselves. -/
example : (match cellwise (fun r x y m => CA.addMprodAT 0 r x y 1 1 m)
      ⟨⟨⟨256, [2, 1, 1], [32, 1, 1], 64, 64, 64, -1, false⟩, some 2, -1, [2], [1, 1], [1], [1, 1], 2, 1, 32⟩, 320, 128⟩
      ⟨⟨⟨0, [2, 1, 2], [32, 2, 1], 64, 64, 64, -1, false⟩, some 2, -1, [2], [1, 2], [1], [2, 1], 2, 2, 32⟩, 64, 128⟩
      ⟨⟨⟨0, [2, 1, 2], [32, 2, 1], 64, 64, 64, -1, false⟩, some 2, -1, [2], [1, 2], [1], [2, 1], 2, 2, 32⟩, 64, 128⟩ (fun c => if c < 384 then some (c : Int) else none) with
    | .ok m' => (m' 256 == some (256 + ((0 - 64 * 64) + (1 - 65 * 65))) && m' 352 == some (352 + (2 * 32 * 96 + 2 * 33 * 97)))
    | _ => false) = true := by decide +kernel

end CAA

end Cnine
