import Verif.Props.RConv

/-! # Convolutions with a list of filter entries -/

namespace Cnine
namespace RConv

open Conv

variable {α : Type}

theorem acc_forM [AddCommMonoid α] {ι : Type} {P : Nat → Prop} {m0 : Buf α} {v : SV} {l : List ι} {G : ι → List Nat → α}
    {body : Buf α → ι → Res (Buf α)} (h : ∀ i ∈ l, Acc P m0 (fun m => body m i) (spread v (G i))) :
    Acc P m0 (fun m => Res.forM l m body) (spread v fun ix => (l.map fun i => G i ix).sum) :=
  Acc.congr (Acc.forM l body _ h) (fun _ _ => rfl) (fun c => (spread_sum v l G c).symm)

/-- Adding to one row only. -/
theorem spread_row [AddCommMonoid α] {v : SV} (hv : v.WF) {n : Nat} {ds : List Nat} (hd : v.dims = n :: ds) {a : Nat} (ha : a < n)
    {G : List Nat → α} (h0 : ∀ b ix, b ≠ a → G (b :: ix) = 0) (c : Nat) :
    spread v G c = spread (v.sub a) (fun ix => G (a :: ix)) c := by
  rw [← spread_cons v hv hd G c]
  refine sum_single _ List.nodup_range _ a (List.mem_range.2 ha) fun b _ hb => ?_
  simp only [spread]
  rw [List.map_congr_left (g := fun _ => (0 : α)) fun ix _ => by rw [h0 b ix hb, ite_self]]
  exact sum_map_zero' _

theorem acc_row [AddCommMonoid α] {P : Nat → Prop} {m0 : Buf α} {v : SV} (hv : v.WF) {n : Nat} {ds : List Nat}
    (hd : v.dims = n :: ds) {a : Nat} (ha : a < n) {G : List Nat → α} (h0 : ∀ b ix, b ≠ a → G (b :: ix) = 0)
    {prog : Buf α → Res (Buf α)} (h : Acc P m0 prog (spread (v.sub a) fun ix => G (a :: ix))) : Acc P m0 prog (spread v G) :=
  Acc.congr h (fun _ _ => rfl) (spread_row hv hd ha h0)

/-- `row v R X` adds `v X(cx)` to `R(cx)`. -/
def IsRow [NonUnitalNonAssocSemiring α] (row : α → SV → SV → Buf α → Res (Buf α)) (cs : List Nat) : Prop :=
  ∀ (v : α) (R X : SV) (P : Nat → Prop) (m0 : Buf α) (Xf : List Nat → α), R.WF → X.WF → R.dims = cs → X.dims = cs →
    X.Holds m0 Xf → In P X → R.Has m0 → Out P R → Acc P m0 (row v R X) (spread R fun cx => v * Xf cx)

/-- One scalar. -/
def row0 [Add α] [Mul α] (v : α) (R X : SV) (m : Buf α) : Res (Buf α) := do
  let u ← rd m X.off
  inc m R.off (v * u)

/-- One vector. -/
def row1 [Add α] [Mul α] (v : α) (R X : SV) (m : Buf α) : Res (Buf α) :=
  loop (X.dims.headD 0) m fun c m => row0 v (R.sub c) (X.sub c) m

theorem row0_isRow [NonUnitalNonAssocSemiring α] : IsRow (α := α) row0 [] := by
  intro v R X P m0 Xf hR hX dR dX vX iX aR oR
  have hx := vX [] (by simp [InRange, dX])
  have hc : ∀ V : SV, V.cell [] = V.off := fun V => by
    rcases V with ⟨o, d, s⟩
    cases s <;> simp [SV.cell, sdot]
  rw [SV.val, hc] at hx
  have hi := iX [] (by simp [InRange, dX])
  rw [hc] at hi
  have ha := aR [] (by simp [InRange, dR])
  rw [SV.val, hc] at ha
  have ho := oR [] (by simp [InRange, dR])
  rw [hc] at ho
  refine Acc.congr (Acc.inc (t := v * Xf []) ha ho) (fun m hm => ?_) fun c => ?_
  · rw [row0, hm.rd hx hi, Res.ok_bind]
  · rw [spread_nil R dR, hc]

theorem row1_isRow [NonUnitalNonAssocSemiring α] (c : Nat) : IsRow (α := α) row1 [c] := by
  intro v R X P m0 Xf hR hX dR dX vX iX aR oR
  refine acc_prog (acc_axis hR dR fun i hi => row0_isRow v (R.sub i) (X.sub i) P m0 (fun ix => Xf (i :: ix)) (hR.sub i) (hX.sub i)
    (by simp [SV.sub, dR]) (by simp [SV.sub, dX]) (Holds_sub hX dX hi vX) (In_sub hX dX hi iX) (Has_sub hR dR hi aR)
    (Out_sub hR dR hi oR)) fun m => ?_
  rw [row1, dX]
  rfl

/-- A window of which only filter position `j0` counts. -/
theorem win_single [AddCommMonoid α] (pad : Int) (nj np i j0 : Nat) (F : Nat → Nat → α) (hj : j0 < nj)
    (h0 : ∀ j p, j < nj → j ≠ j0 → F j p = 0) :
    (sumTo nj fun j => sumTo np fun p => if (i : Int) + j - pad = p then F j p else 0) =
      if (i : Int) + j0 - pad < 0 ∨ (i : Int) + j0 - pad ≥ np then 0 else F j0 ((i : Int) + j0 - pad).toNat := by
  rw [sumTo_single j0 hj fun j hj hne => sumTo_eq_zero fun p _ => by rw [h0 j p hj hne, ite_self]]
  split_ifs with h
  · refine sumTo_eq_zero fun p hp => if_neg fun e => ?_
    omega
  · rw [sumTo_single ((i : Int) + j0 - pad).toNat (by omega) fun p _ hne => if_neg fun e => hne (by omega), if_pos (by omega)]

/-- Decoding a column of the filter. -/
theorem column2 {J0 J1 A c : Nat} (h : c < J0 * J1 * A) :
    0 < J1 ∧ 0 < A ∧ c / (J1 * A) < J0 ∧ c / A % J1 < J1 ∧ c % A < A ∧
      ∀ j0 j1 b : Nat, j1 < J1 → b < A → (c = (j0 * J1 + j1) * A + b ↔ j0 = c / (J1 * A) ∧ j1 = c / A % J1 ∧ b = c % A) := by
  have hA : 0 < A := Nat.pos_of_ne_zero fun e => by subst e; simp at h
  have hJ : 0 < J1 := Nat.pos_of_ne_zero fun e => by subst e; simp at h
  have hq : c / (J1 * A) < J0 := (Nat.div_lt_iff_lt_mul (Nat.mul_pos hJ hA)).2 (by rwa [Nat.mul_assoc] at h)
  refine ⟨hJ, hA, hq, Nat.mod_lt _ hJ, Nat.mod_lt _ hA, fun j0 j1 b h1 hb => ⟨?_, ?_⟩⟩
  · intro e
    have e1 : c / A = j0 * J1 + j1 := by
      rw [e, Nat.mul_comm _ A, Nat.mul_add_div hA, Nat.div_eq_of_lt hb, Nat.add_zero]
    refine ⟨?_, ?_, ?_⟩
    · rw [Nat.mul_comm, ← Nat.div_div_eq_div_mul, e1, Nat.mul_comm, Nat.mul_add_div hJ, Nat.div_eq_of_lt h1, Nat.add_zero]
    · rw [e1, Nat.mul_comm, Nat.mul_add_mod, Nat.mod_eq_of_lt h1]
    · rw [e, Nat.mul_comm, Nat.mul_add_mod, Nat.mod_eq_of_lt hb]
  · rintro ⟨rfl, rfl, rfl⟩
    rw [Nat.mul_comm J1 A, ← Nat.div_div_eq_div_mul]
    have e1 := Nat.div_add_mod (c / A) J1
    have e2 := Nat.div_add_mod c A
    calc c = A * (c / A) + c % A := e2.symm
      _ = A * (J1 * (c / A / J1) + c / A % J1) + c % A := by rw [e1]
      _ = _ := by ring

theorem column3 {J0 J1 J2 A c : Nat} (h : c < J0 * J1 * J2 * A) :
    0 < J1 ∧ 0 < J2 ∧ 0 < A ∧ c / (J2 * A) / J1 < J0 ∧ c / (J2 * A) % J1 < J1 ∧ c / A % J2 < J2 ∧ c % A < A ∧
      ∀ j0 j1 j2 b : Nat, j1 < J1 → j2 < J2 → b < A → (c = ((j0 * J1 + j1) * J2 + j2) * A + b ↔
        j0 = c / (J2 * A) / J1 ∧ j1 = c / (J2 * A) % J1 ∧ j2 = c / A % J2 ∧ b = c % A) := by
  obtain ⟨h2, hA, hq, a1, a2, k⟩ := column2 (J0 := J0 * J1) (J1 := J2) h
  have h1 : 0 < J1 := Nat.pos_of_ne_zero fun e => by subst e; simp at h
  refine ⟨h1, h2, hA, (Nat.div_lt_iff_lt_mul h1).2 hq, Nat.mod_lt _ h1, a1, a2, fun j0 j1 j2 b b1 b2 b3 => ?_⟩
  rw [k (j0 * J1 + j1) j2 b b2 b3]
  constructor
  · rintro ⟨e1, e2, e3⟩
    refine ⟨?_, ?_, e2, e3⟩
    · rw [← e1, Nat.mul_comm, Nat.mul_add_div h1, Nat.div_eq_of_lt b1, Nat.add_zero]
    · rw [← e1, Nat.mul_comm, Nat.mul_add_mod, Nat.mod_eq_of_lt b1]
  · rintro ⟨e1, e2, e3, e4⟩
    refine ⟨?_, e3, e4⟩
    rw [e1, e2, Nat.mul_comm, Nat.div_add_mod]

theorem rfwd2_add [NonUnitalNonAssocSemiring α] (pad0 pad1 : Int) (nj0 np0 nj1 np1 k : Nat) {ι : Type} (l : List ι)
    (Wf : ι → List Nat → α) (Xf : List Nat → α) (ix : List Nat) :
    rfwd2 pad0 pad1 nj0 np0 nj1 np1 k (fun jx => (l.map fun e => Wf e jx).sum) Xf ix =
      (l.map fun e => rfwd2 pad0 pad1 nj0 np0 nj1 np1 k (Wf e) Xf ix).sum := by
  match ix with
  | [] => simp [rfwd2]
  | [_] => simp [rfwd2]
  | [_, _] => simp [rfwd2]
  | i0 :: i1 :: a :: cx =>
    simp only [rfwd2]
    rw [pull]
    refine sumTo_congr fun j0 _ => sumTo_congr fun p0 _ => ?_
    congr 1
    rw [pull]
    refine sumTo_congr fun j1 _ => sumTo_congr fun p1 _ => ?_
    congr 1
    unfold sumTo
    rw [sum_comm']
    refine congrArg List.sum (List.map_congr_left fun b _ => ?_)
    exact sum_mul' _ _ _

theorem rfwd3_add [NonUnitalNonAssocSemiring α] (pad0 pad1 pad2 : Int) (nj0 np0 nj1 np1 nj2 np2 k : Nat) {ι : Type} (l : List ι)
    (Wf : ι → List Nat → α) (Xf : List Nat → α) (ix : List Nat) :
    rfwd3 pad0 pad1 pad2 nj0 np0 nj1 np1 nj2 np2 k (fun jx => (l.map fun e => Wf e jx).sum) Xf ix =
      (l.map fun e => rfwd3 pad0 pad1 pad2 nj0 np0 nj1 np1 nj2 np2 k (Wf e) Xf ix).sum := by
  match ix with
  | [] => simp [rfwd3]
  | [_] => simp [rfwd3]
  | [_, _] => simp [rfwd3]
  | [_, _, _] => simp [rfwd3]
  | i0 :: i1 :: i2 :: a :: cx =>
    simp only [rfwd3]
    rw [pull]
    refine sumTo_congr fun j0 _ => sumTo_congr fun p0 _ => ?_
    congr 1
    rw [pull]
    refine sumTo_congr fun j1 _ => sumTo_congr fun p1 _ => ?_
    congr 1
    rw [pull]
    refine sumTo_congr fun j2 _ => sumTo_congr fun p2 _ => ?_
    congr 1
    unfold sumTo
    rw [sum_comm']
    refine congrArg List.sum (List.map_congr_left fun b _ => ?_)
    exact sum_mul' _ _ _

/-- The filter given by entries (row, column, value): several at one place add up. -/
def fil2 [AddCommMonoid α] (J1 A : Nat) (es : List (Nat × Nat × α)) : List Nat → α
  | [a, j0, j1, b] => (es.map fun e => if e.1 = a ∧ e.2.1 = (j0 * J1 + j1) * A + b then e.2.2 else 0).sum
  | _ => 0

def fil3 [AddCommMonoid α] (J1 J2 A : Nat) (es : List (Nat × Nat × α)) : List Nat → α
  | [a, j0, j1, j2, b] => (es.map fun e => if e.1 = a ∧ e.2.1 = ((j0 * J1 + j1) * J2 + j2) * A + b then e.2.2 else 0).sum
  | _ => 0

/-- One entry's part of the result. -/
theorem rfwd2_single [NonUnitalNonAssocSemiring α] (pad0 pad1 : Int) {J0 J1 A : Nat} (np0 np1 : Nat) (e : Nat × Nat × α)
    (Xf : List Nat → α) (i0 i1 a : Nat) (cx : List Nat) (he : e.2.1 < J0 * J1 * A) :
    rfwd2 pad0 pad1 J0 np0 J1 np1 A (fil2 J1 A [e]) Xf (i0 :: i1 :: a :: cx) =
      if (i0 : Int) + (e.2.1 / (J1 * A) : Nat) - pad0 < 0 ∨ (i0 : Int) + (e.2.1 / (J1 * A) : Nat) - pad0 ≥ np0 then 0 else
      if (i1 : Int) + (e.2.1 / A % J1 : Nat) - pad1 < 0 ∨ (i1 : Int) + (e.2.1 / A % J1 : Nat) - pad1 ≥ np1 then 0 else
      if e.1 = a then e.2.2 * Xf (((i0 : Int) + (e.2.1 / (J1 * A) : Nat) - pad0).toNat ::
        ((i1 : Int) + (e.2.1 / A % J1 : Nat) - pad1).toNat :: (e.2.1 % A) :: cx) else 0 := by
  obtain ⟨h1, hA, q0, q1, q2, k⟩ := column2 he
  have hf : ∀ j0 j1 b : Nat, j1 < J1 → b < A → fil2 J1 A [e] [a, j0, j1, b] =
      if j0 = e.2.1 / (J1 * A) then if j1 = e.2.1 / A % J1 then if b = e.2.1 % A then if e.1 = a then e.2.2 else 0 else 0 else 0
        else 0 := by
    intro j0 j1 b b1 b2
    simp only [fil2, List.map_cons, List.map_nil, List.sum_cons, List.sum_nil, add_zero, k j0 j1 b b1 b2]
    split_ifs <;> simp_all
  simp only [rfwd2]
  rw [win_single pad0 J0 np0 i0 _ _ q0]
  · refine if_congr Iff.rfl rfl ?_
    rw [win_single pad1 J1 np1 i1 _ _ q1]
    · refine if_congr Iff.rfl rfl ?_
      rw [sumTo_single (e.2.1 % A) q2 fun b hb hne => by rw [hf _ _ _ q1 hb]; simp [hne]]
      rw [hf _ _ _ q1 q2]
      simp only [if_true]
      split_ifs <;> simp
    · intro j1 p1 hj hne
      exact sumTo_eq_zero fun b hb => by rw [hf _ _ _ hj hb]; simp [hne]
  · intro j0 p0 _ hne
    refine sumTo_eq_zero fun j1 hj1 => sumTo_eq_zero fun p1 _ => ?_
    rw [sumTo_eq_zero fun b hb => by rw [hf _ _ _ hj1 hb]; simp [hne], ite_self]

theorem rfwd3_single [NonUnitalNonAssocSemiring α] (pad0 pad1 pad2 : Int) {J0 J1 J2 A : Nat} (np0 np1 np2 : Nat)
    (e : Nat × Nat × α) (Xf : List Nat → α) (i0 i1 i2 a : Nat) (cx : List Nat) (he : e.2.1 < J0 * J1 * J2 * A) :
    rfwd3 pad0 pad1 pad2 J0 np0 J1 np1 J2 np2 A (fil3 J1 J2 A [e]) Xf (i0 :: i1 :: i2 :: a :: cx) =
      if (i0 : Int) + (e.2.1 / (J2 * A) / J1 : Nat) - pad0 < 0 ∨ (i0 : Int) + (e.2.1 / (J2 * A) / J1 : Nat) - pad0 ≥ np0 then 0 else
      if (i1 : Int) + (e.2.1 / (J2 * A) % J1 : Nat) - pad1 < 0 ∨ (i1 : Int) + (e.2.1 / (J2 * A) % J1 : Nat) - pad1 ≥ np1 then 0 else
      if (i2 : Int) + (e.2.1 / A % J2 : Nat) - pad2 < 0 ∨ (i2 : Int) + (e.2.1 / A % J2 : Nat) - pad2 ≥ np2 then 0 else
      if e.1 = a then e.2.2 * Xf (((i0 : Int) + (e.2.1 / (J2 * A) / J1 : Nat) - pad0).toNat ::
        ((i1 : Int) + (e.2.1 / (J2 * A) % J1 : Nat) - pad1).toNat :: ((i2 : Int) + (e.2.1 / A % J2 : Nat) - pad2).toNat ::
          (e.2.1 % A) :: cx) else 0 := by
  obtain ⟨h1, h2, hA, q0, q1, q2, q3, k⟩ := column3 he
  have hf : ∀ j0 j1 j2 b : Nat, j1 < J1 → j2 < J2 → b < A → fil3 J1 J2 A [e] [a, j0, j1, j2, b] =
      if j0 = e.2.1 / (J2 * A) / J1 then if j1 = e.2.1 / (J2 * A) % J1 then if j2 = e.2.1 / A % J2 then if b = e.2.1 % A then
        if e.1 = a then e.2.2 else 0 else 0 else 0 else 0 else 0 := by
    intro j0 j1 j2 b b1 b2 b3
    simp only [fil3, List.map_cons, List.map_nil, List.sum_cons, List.sum_nil, add_zero, k j0 j1 j2 b b1 b2 b3]
    split_ifs <;> simp_all
  simp only [rfwd3]
  rw [win_single pad0 J0 np0 i0 _ _ q0]
  · refine if_congr Iff.rfl rfl ?_
    rw [win_single pad1 J1 np1 i1 _ _ q1]
    · refine if_congr Iff.rfl rfl ?_
      rw [win_single pad2 J2 np2 i2 _ _ q2]
      · refine if_congr Iff.rfl rfl ?_
        rw [sumTo_single (e.2.1 % A) q3 fun b hb hne => by rw [hf _ _ _ _ q1 q2 hb]; simp [hne]]
        rw [hf _ _ _ _ q1 q2 q3]
        simp only [if_true]
        split_ifs <;> simp
      · intro j2 p2 hj hne
        exact sumTo_eq_zero fun b hb => by rw [hf _ _ _ _ q1 hj hb]; simp [hne]
    · intro j1 p1 hj hne
      refine sumTo_eq_zero fun j2 hj2 => sumTo_eq_zero fun p2 _ => ?_
      rw [sumTo_eq_zero fun b hb => by rw [hf _ _ _ _ hj hj2 hb]; simp [hne], ite_self]
  · intro j0 p0 _ hne
    refine sumTo_eq_zero fun j1 hj1 => sumTo_eq_zero fun p1 _ => ?_
    rw [sumTo_eq_zero fun j2 hj2 => sumTo_eq_zero fun p2 _ => ?_, ite_self]
    rw [sumTo_eq_zero fun b hb => by rw [hf _ _ _ _ hj1 hj2 hb]; simp [hne], ite_self]

theorem fil2_sum [AddCommMonoid α] (J1 A : Nat) (es : List (Nat × Nat × α)) (jx : List Nat) :
    fil2 J1 A es jx = (es.map fun e => fil2 J1 A [e] jx).sum := by
  unfold fil2
  split
  · simp
  · simp

theorem fil3_sum [AddCommMonoid α] (J1 J2 A : Nat) (es : List (Nat × Nat × α)) (jx : List Nat) :
    fil3 J1 J2 A es jx = (es.map fun e => fil3 J1 J2 A [e] jx).sum := by
  unfold fil3
  split
  · simp
  · simp

section
variable [NonUnitalNonAssocSemiring α] {row : α → SV → SV → Buf α → Res (Buf α)} {cs : List Nat} (hrow : IsRow row cs)
  {r x : SV} (hr : r.WF) {P : Nat → Prop} {m0 : Buf α} {Xf : List Nat → α} (ar : r.Has m0) (or : Out P r)
  (hx : x.WF) (vx : x.Holds m0 Xf) (ix : In P x)
include hrow hr ar or hx vx ix

theorem acc2s {ni0 ni1 np0 np1 n A J0 J1 : Nat} (p0 p1 : Int)
    (dr : r.dims = ni0 :: ni1 :: n :: cs) (dx : x.dims = np0 :: np1 :: A :: cs) (es : List (Nat × Nat × α))
    (hes : ∀ e ∈ es, e.1 < n ∧ e.2.1 < J0 * J1 * A) :
    Acc P m0 (fun m => loop ni0 m fun i0 m => loop ni1 m fun i1 m =>
      Res.forM es m fun m (e : Nat × Nat × α) =>
        if (i0 : Int) + (e.2.1 / (J1 * A) : Nat) - p0 < 0 ∨ (i0 : Int) + (e.2.1 / (J1 * A) : Nat) - p0 ≥ np0 then .ok m
        else if (i1 : Int) + (e.2.1 / A % J1 : Nat) - p1 < 0 ∨ (i1 : Int) + (e.2.1 / A % J1 : Nat) - p1 ≥ np1 then .ok m
        else row e.2.2 (((r.sub i0).sub i1).sub e.1)
          (((x.sub (i0 + (e.2.1 / (J1 * A) : Nat) - p0)).sub (i1 + (e.2.1 / A % J1 : Nat) - p1)).sub (e.2.1 % A : Nat)) m)
      (spread r (rfwd2 p0 p1 J0 np0 J1 np1 A (fil2 J1 A es) Xf)) := by
  refine acc_axis hr dr fun i0 hi0 => ?_
  have d1 : (r.sub i0).dims = ni1 :: n :: cs := by simp [SV.sub, dr]
  refine acc_axis (hr.sub i0) d1 fun i1 hi1 => ?_
  have d2 : ((r.sub i0).sub i1).dims = n :: cs := by simp [SV.sub, dr]
  have hr1 := hr.sub i0
  have hr2 := hr1.sub i1
  refine acc_same (acc_forM (G := fun e jx => rfwd2 p0 p1 J0 np0 J1 np1 A (fil2 J1 A [e]) Xf (i0 :: i1 :: jx)) fun e he => ?_) ?_
  · obtain ⟨he1, he2⟩ := hes e he
    obtain ⟨h1, hA, q0, q1, q2, k⟩ := column2 he2
    have hG := fun a cx => rfwd2_single p0 p1 np0 np1 e Xf i0 i1 a cx he2
    by_cases c0 : (i0 : Int) + (e.2.1 / (J1 * A) : Nat) - p0 < 0 ∨ (i0 : Int) + (e.2.1 / (J1 * A) : Nat) - p0 ≥ np0
    · simp only [if_pos c0]
      refine acc_skip fun jx hjx => ?_
      rw [d2] at hjx
      match jx, hjx.length with
      | a :: cx, _ => rw [hG, if_pos c0]
    · simp only [if_neg c0]
      by_cases c1 : (i1 : Int) + (e.2.1 / A % J1 : Nat) - p1 < 0 ∨ (i1 : Int) + (e.2.1 / A % J1 : Nat) - p1 ≥ np1
      · simp only [if_pos c1]
        refine acc_skip fun jx hjx => ?_
        rw [d2] at hjx
        match jx, hjx.length with
        | a :: cx, _ => rw [hG, if_neg c0, if_pos c1]
      · simp only [if_neg c1]
        obtain ⟨t0, ht0⟩ : ∃ t0 : Nat, (i0 : Int) + (e.2.1 / (J1 * A) : Nat) - p0 = t0 := ⟨_, (Int.toNat_of_nonneg (by omega)).symm⟩
        obtain ⟨t1, ht1⟩ : ∃ t1 : Nat, (i1 : Int) + (e.2.1 / A % J1 : Nat) - p1 = t1 := ⟨_, (Int.toNat_of_nonneg (by omega)).symm⟩
        simp only [if_neg c0, if_neg c1] at hG
        rw [ht0] at c0 hG ⊢
        rw [ht1] at c1 hG ⊢
        simp only [Int.toNat_natCast] at hG
        have x1 : (x.sub t0).dims = np1 :: A :: cs := by simp [SV.sub, dx]
        have x2 : ((x.sub t0).sub t1).dims = A :: cs := by simp [SV.sub, dx]
        have hx1 := hx.sub t0
        have hx2 := hx1.sub t1
        have b0 : t0 < np0 := by omega
        have b1 : t1 < np1 := by omega
        refine acc_row hr2 d2 he1 (fun b cx hb => by rw [hG, if_neg (Ne.symm hb)]) ?_
        refine acc_same (hrow e.2.2 _ _ P m0 (fun cx => Xf (t0 :: t1 :: (e.2.1 % A) :: cx)) (hr2.sub e.1) (hx2.sub _) (by simp [SV.sub, dr])
          (by simp [SV.sub, dx]) (Holds_sub hx2 x2 q2 (Holds_sub hx1 x1 b1 (Holds_sub hx dx b0 vx)))
          (In_sub hx2 x2 q2 (In_sub hx1 x1 b1 (In_sub hx dx b0 ix)))
          (Has_sub hr2 d2 he1 (Has_sub hr1 d1 hi1 (Has_sub hr dr hi0 ar)))
          (Out_sub hr2 d2 he1 (Out_sub hr1 d1 hi1 (Out_sub hr dr hi0 or)))) fun cx _ => ?_
        rw [hG, if_pos rfl]
  · intro jx _
    rw [← rfwd2_add]
    congr 1
    exact funext fun jx => fil2_sum J1 A es jx

theorem acc3s {ni0 ni1 ni2 np0 np1 np2 n A J0 J1 J2 : Nat} (p0 p1 p2 : Int)
    (dr : r.dims = ni0 :: ni1 :: ni2 :: n :: cs) (dx : x.dims = np0 :: np1 :: np2 :: A :: cs) (es : List (Nat × Nat × α))
    (hes : ∀ e ∈ es, e.1 < n ∧ e.2.1 < J0 * J1 * J2 * A) :
    Acc P m0 (fun m => loop ni0 m fun i0 m => loop ni1 m fun i1 m => loop ni2 m fun i2 m =>
      Res.forM es m fun m (e : Nat × Nat × α) =>
        if (i0 : Int) + (e.2.1 / (J2 * A) / J1 : Nat) - p0 < 0 ∨ (i0 : Int) + (e.2.1 / (J2 * A) / J1 : Nat) - p0 ≥ np0 then .ok m
        else if (i1 : Int) + (e.2.1 / (J2 * A) % J1 : Nat) - p1 < 0 ∨ (i1 : Int) + (e.2.1 / (J2 * A) % J1 : Nat) - p1 ≥ np1 then .ok m
        else if (i2 : Int) + (e.2.1 / A % J2 : Nat) - p2 < 0 ∨ (i2 : Int) + (e.2.1 / A % J2 : Nat) - p2 ≥ np2 then .ok m
        else row e.2.2 ((((r.sub i0).sub i1).sub i2).sub e.1)
          ((((x.sub (i0 + (e.2.1 / (J2 * A) / J1 : Nat) - p0)).sub (i1 + (e.2.1 / (J2 * A) % J1 : Nat) - p1)).sub
            (i2 + (e.2.1 / A % J2 : Nat) - p2)).sub (e.2.1 % A : Nat)) m)
      (spread r (rfwd3 p0 p1 p2 J0 np0 J1 np1 J2 np2 A (fil3 J1 J2 A es) Xf)) := by
  refine acc_axis hr dr fun i0 hi0 => ?_
  have d1 : (r.sub i0).dims = ni1 :: ni2 :: n :: cs := by simp [SV.sub, dr]
  refine acc_axis (hr.sub i0) d1 fun i1 hi1 => ?_
  have d2 : ((r.sub i0).sub i1).dims = ni2 :: n :: cs := by simp [SV.sub, dr]
  refine acc_axis ((hr.sub i0).sub i1) d2 fun i2 hi2 => ?_
  have d3 : (((r.sub i0).sub i1).sub i2).dims = n :: cs := by simp [SV.sub, dr]
  have hr1 := hr.sub i0
  have hr2 := hr1.sub i1
  have hr3 := hr2.sub i2
  refine acc_same (acc_forM (G := fun e jx => rfwd3 p0 p1 p2 J0 np0 J1 np1 J2 np2 A (fil3 J1 J2 A [e]) Xf (i0 :: i1 :: i2 :: jx))
    fun e he => ?_) ?_
  · obtain ⟨he1, he2⟩ := hes e he
    obtain ⟨h1, h2, hA, q0, q1, q2, q3, k⟩ := column3 he2
    have hG := fun a cx => rfwd3_single p0 p1 p2 np0 np1 np2 e Xf i0 i1 i2 a cx he2
    by_cases c0 : (i0 : Int) + (e.2.1 / (J2 * A) / J1 : Nat) - p0 < 0 ∨ (i0 : Int) + (e.2.1 / (J2 * A) / J1 : Nat) - p0 ≥ np0
    · simp only [if_pos c0]
      refine acc_skip fun jx hjx => ?_
      rw [d3] at hjx
      match jx, hjx.length with
      | a :: cx, _ => rw [hG, if_pos c0]
    · simp only [if_neg c0]
      by_cases c1 : (i1 : Int) + (e.2.1 / (J2 * A) % J1 : Nat) - p1 < 0 ∨ (i1 : Int) + (e.2.1 / (J2 * A) % J1 : Nat) - p1 ≥ np1
      · simp only [if_pos c1]
        refine acc_skip fun jx hjx => ?_
        rw [d3] at hjx
        match jx, hjx.length with
        | a :: cx, _ => rw [hG, if_neg c0, if_pos c1]
      · simp only [if_neg c1]
        by_cases c2 : (i2 : Int) + (e.2.1 / A % J2 : Nat) - p2 < 0 ∨ (i2 : Int) + (e.2.1 / A % J2 : Nat) - p2 ≥ np2
        · simp only [if_pos c2]
          refine acc_skip fun jx hjx => ?_
          rw [d3] at hjx
          match jx, hjx.length with
          | a :: cx, _ => rw [hG, if_neg c0, if_neg c1, if_pos c2]
        · simp only [if_neg c2]
          obtain ⟨t0, ht0⟩ : ∃ t0 : Nat, (i0 : Int) + (e.2.1 / (J2 * A) / J1 : Nat) - p0 = t0 :=
            ⟨_, (Int.toNat_of_nonneg (by omega)).symm⟩
          obtain ⟨t1, ht1⟩ : ∃ t1 : Nat, (i1 : Int) + (e.2.1 / (J2 * A) % J1 : Nat) - p1 = t1 :=
            ⟨_, (Int.toNat_of_nonneg (by omega)).symm⟩
          obtain ⟨t2, ht2⟩ : ∃ t2 : Nat, (i2 : Int) + (e.2.1 / A % J2 : Nat) - p2 = t2 :=
            ⟨_, (Int.toNat_of_nonneg (by omega)).symm⟩
          simp only [if_neg c0, if_neg c1, if_neg c2] at hG
          rw [ht0] at c0 hG ⊢
          rw [ht1] at c1 hG ⊢
          rw [ht2] at c2 hG ⊢
          simp only [Int.toNat_natCast] at hG
          have x1 : (x.sub t0).dims = np1 :: np2 :: A :: cs := by simp [SV.sub, dx]
          have x2 : ((x.sub t0).sub t1).dims = np2 :: A :: cs := by simp [SV.sub, dx]
          have x3 : (((x.sub t0).sub t1).sub t2).dims = A :: cs := by simp [SV.sub, dx]
          have hx1 := hx.sub t0
          have hx2 := hx1.sub t1
          have hx3 := hx2.sub t2
          have b0 : t0 < np0 := by omega
          have b1 : t1 < np1 := by omega
          have b2 : t2 < np2 := by omega
          refine acc_row hr3 d3 he1 (fun b cx hb => by rw [hG, if_neg (Ne.symm hb)]) ?_
          refine acc_same (hrow e.2.2 _ _ P m0 (fun cx => Xf (t0 :: t1 :: t2 :: (e.2.1 % A) :: cx)) (hr3.sub e.1) (hx3.sub _)
            (by simp [SV.sub, dr]) (by simp [SV.sub, dx])
            (Holds_sub hx3 x3 q3 (Holds_sub hx2 x2 b2 (Holds_sub hx1 x1 b1 (Holds_sub hx dx b0 vx))))
            (In_sub hx3 x3 q3 (In_sub hx2 x2 b2 (In_sub hx1 x1 b1 (In_sub hx dx b0 ix))))
            (Has_sub hr3 d3 he1 (Has_sub hr2 d2 hi2 (Has_sub hr1 d1 hi1 (Has_sub hr dr hi0 ar))))
            (Out_sub hr3 d3 he1 (Out_sub hr2 d2 hi2 (Out_sub hr1 d1 hi1 (Out_sub hr dr hi0 or))))) fun cx _ => ?_
          rw [hG, if_pos rfl]
  · intro jx _
    rw [← rfwd3_add]
    congr 1
    exact funext fun jx => fil3_sum J1 J2 A es jx

end

end RConv
end Cnine
