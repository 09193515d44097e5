import Verif.Model.RConv
import Verif.Props.Conv

/-! # Nested loops over axes and windows -/

namespace Cnine
namespace RConv

open Conv

variable {α : Type}

theorem acc_axis [AddCommMonoid α] {P : Nat → Prop} {m0 : Buf α} {v : SV} (hv : v.WF) {n : Nat} {ds : List Nat}
    (hd : v.dims = n :: ds) {G : List Nat → α} {body : Nat → Buf α → Res (Buf α)}
    (h : ∀ i : Nat, i < n → Acc P m0 (body i) (spread (v.sub i) fun ix => G (i :: ix))) :
    Acc P m0 (fun m => loop n m body) (spread v G) :=
  Acc.congr (Acc.loop n body _ h) (fun _ _ => rfl) (fun c => (spread_cons v hv hd G c).symm)

theorem acc_win [AddCommMonoid α] {P : Nat → Prop} {m0 : Buf α} {v : SV} {nj np i : Nat} {pad : Int}
    {F : Nat → Nat → List Nat → α} {body : Int → Buf α → Res (Buf α)}
    (h : ∀ j p : Nat, j < nj → p < np → (i : Int) + j - pad = p → Acc P m0 (body j) (spread v (F j p))) :
    Acc P m0 (fun m => loopI (max 0 (pad - i)) (min (nj : Int) (np - i + pad)) m body)
      (spread v fun ix => sumTo nj fun j => sumTo np fun p => if (i : Int) + j - pad = p then F j p ix else 0) :=
  Acc.congr (Acc.loopI nj np i pad body _ h) (fun _ _ => rfl) (fun c => (spread_window v nj np i pad F c).symm)

theorem acc_same [AddCommMonoid α] {P : Nat → Prop} {m0 : Buf α} {v : SV} {prog : Buf α → Res (Buf α)} {G G' : List Nat → α}
    (h : Acc P m0 prog (spread v G)) (e : ∀ ix, InRange ix v.dims → G' ix = G ix) : Acc P m0 prog (spread v G') :=
  Acc.congr h (fun _ _ => rfl) (spread_congr v e)

theorem acc_prog [AddCommMonoid α] {P : Nat → Prop} {m0 : Buf α} {prog prog' : Buf α → Res (Buf α)} {f : Nat → α}
    (h : Acc P m0 prog f) (e : ∀ m, prog' m = prog m) : Acc P m0 prog' f :=
  Acc.congr h (fun m _ => e m) (fun _ => rfl)

theorem acc_skip [AddCommMonoid α] {P : Nat → Prop} {m0 : Buf α} {v : SV} {G : List Nat → α}
    (e : ∀ ix, InRange ix v.dims → G ix = 0) : Acc P m0 (fun m => .ok m) (spread v G) := by
  refine acc_same (G := fun _ => 0) ⟨fun c _ => by simp [spread], fun m _ => ⟨m, rfl, fun c => ?_⟩⟩ e
  have : spread v (fun _ => (0 : α)) c = 0 := by simp [spread]
  rw [this]
  cases m c <;> simp

theorem through_in {v' v : SV} {φ : List Nat → List Nat} (h : Through v' v φ) {P : Nat → Prop} (hv : In P v) : In P v' := by
  intro ix hix
  obtain ⟨h1, h2⟩ := h ix hix
  rw [h2]
  exact hv _ h1

theorem through_out {v' v : SV} {φ : List Nat → List Nat} (h : Through v' v φ) {P : Nat → Prop} (hv : Out P v) : Out P v' := by
  intro ix hix
  obtain ⟨h1, h2⟩ := h ix hix
  rw [h2]
  exact hv _ h1

theorem through_has {v' v : SV} {φ : List Nat → List Nat} (h : Through v' v φ) {m : Buf α} (hv : v.Has m) : v'.Has m := by
  intro ix hix
  obtain ⟨h1, h2⟩ := h ix hix
  rw [SV.val, h2]
  exact hv _ h1

theorem mprodTo_isProd [NonUnitalNonAssocSemiring α] : IsProd (α := α) (fun R W X => mprodTo W R X) [] := by
  intro n k R W X P m0 Wf Xf hR hW hX dR dW dX vW vX iW iX aR oR
  refine acc_prog (mvprod_isProd n k R W X P m0 Wf Xf hR hW hX dR dW dX vW vX iW iX aR oR) fun m => ?_
  simp only [mprodTo, SV.addMvprod, Res.get, dR, dW, dX, List.getElem?_cons_zero, List.getElem?_cons_succ, Res.ok_bind,
    decide_true, Res.assrt_true]

/-- `Σ_{t < a b} F t = Σ_{i < a} Σ_{j < b} F (i b + j)`. -/
theorem sumTo_prod [AddCommMonoid α] (a b : Nat) (F : Nat → α) :
    sumTo (a * b) F = sumTo a fun i => sumTo b fun j => F (i * b + j) := by
  induction a with
  | zero => simp [sumTo]
  | succ a ih => rw [Nat.succ_mul, sumTo_add, sumTo_succ, ih]

/-- Three axes: `Σ W(j0,j1,j2,a,b) X(p0,p1,p2,b,cx)` over `b` and over `i_t + j_t - pad_t = p_t`. -/
def fwd3 [NonUnitalNonAssocSemiring α] (pad0 pad1 pad2 : Int) (nj0 np0 nj1 np1 nj2 np2 k : Nat) (Wf Xf : List Nat → α) :
    List Nat → α
  | i0 :: i1 :: i2 :: a :: cx => sumTo nj0 fun j0 => sumTo np0 fun p0 =>
      if (i0 : Int) + j0 - pad0 = p0 then
        sumTo nj1 fun j1 => sumTo np1 fun p1 =>
          if (i1 : Int) + j1 - pad1 = p1 then
            sumTo nj2 fun j2 => sumTo np2 fun p2 =>
              if (i2 : Int) + j2 - pad2 = p2 then sumTo k fun b => Wf [j0, j1, j2, a, b] * Xf (p0 :: p1 :: p2 :: b :: cx)
              else 0
          else 0
      else 0
  | _ => 0

section
variable [NonUnitalNonAssocSemiring α] {prod : SV → SV → SV → Buf α → Res (Buf α)} {cs : List Nat} (hprod : IsProd prod cs)
  {r x w : SV} (hr : r.WF) {P : Nat → Prop} {m0 : Buf α} {Xf Wf : List Nat → α} (ar : r.Has m0) (or : Out P r)
include hprod hr ar or

theorem acc2 (hx : x.WF) (hw : w.WF) {ni0 ni1 np0 np1 nj0 nj1 n k : Nat} (p0 p1 : Int)
    (dr : r.dims = ni0 :: ni1 :: n :: cs) (dx : x.dims = np0 :: np1 :: k :: cs) (dw : w.dims = [nj0, nj1, n, k])
    (vx : x.Holds m0 Xf) (vw : w.Holds m0 Wf) (ix : In P x) (iw : In P w) :
    Acc P m0 (fun m => loop ni0 m fun i0 m => loop ni1 m fun i1 m =>
      loopI (max 0 (p0 - i0)) (min (nj0 : Int) (np0 - i0 + p0)) m fun j0 m =>
        loopI (max 0 (p1 - i1)) (min (nj1 : Int) (np1 - i1 + p1)) m fun j1 m =>
          prod ((r.sub i0).sub i1) ((w.sub j0).sub j1) ((x.sub (i0 + j0 - p0)).sub (i1 + j1 - p1)) m)
      (spread r (fwd2 p0 p1 nj0 np0 nj1 np1 k Wf Xf)) := by
  refine acc_axis hr dr fun i0 hi0 => ?_
  have d1 : (r.sub i0).dims = ni1 :: n :: cs := by simp [SV.sub, dr]
  refine acc_axis (hr.sub i0) d1 fun i1 hi1 => ?_
  have d2 : ((r.sub i0).sub i1).dims = n :: cs := by simp [SV.sub, dr]
  refine acc_same (acc_win (np := np0) (F := fun j0 p0' ix => sumTo nj1 fun j1 => sumTo np1 fun p1' =>
    if (i1 : Int) + j1 - p1 = p1' then sumTo k fun b => Wf [j0, j1, ix.headD 0, b] * Xf (p0' :: p1' :: b :: ix.tail) else 0)
    fun j0 p0' hj0 hp0 e0 => acc_win (np := np1) fun j1 p1' hj1 hp1 e1 => ?_) ?_
  · have w1 : (w.sub j0).dims = [nj1, n, k] := by simp [SV.sub, dw]
    have x1 : (x.sub p0').dims = np1 :: k :: cs := by simp [SV.sub, dx]
    refine acc_prog (hprod n k ((r.sub i0).sub i1) ((w.sub j0).sub j1) ((x.sub p0').sub p1') P m0
        (fun ix => Wf (j0 :: j1 :: ix)) (fun ix => Xf (p0' :: p1' :: ix))
        ((hr.sub i0).sub i1) ((hw.sub j0).sub j1) ((hx.sub p0').sub p1') d2 (by simp [SV.sub, dw]) (by simp [SV.sub, dx])
        (Holds_sub (hw.sub j0) w1 hj1 (Holds_sub hw dw hj0 vw)) (Holds_sub (hx.sub p0') x1 hp1 (Holds_sub hx dx hp0 vx))
        (In_sub (hw.sub j0) w1 hj1 (In_sub hw dw hj0 iw)) (In_sub (hx.sub p0') x1 hp1 (In_sub hx dx hp0 ix))
        (Has_sub (hr.sub i0) d1 hi1 (Has_sub hr dr hi0 ar)) (Out_sub (hr.sub i0) d1 hi1 (Out_sub hr dr hi0 or))) fun m => ?_
    rw [e0, e1]
  · intro jx hjx
    rw [d2] at hjx
    match jx, hjx.length with
    | a :: cx, _ => rfl

/-- With the second axis of the filter joined to the channels. -/
theorem acc2f {ni0 ni1 np0 np1 nj0 nj1 n k : Nat} (p0 : Int) (W : Int → SV) (X : Int → Nat → SV)
    (dr : r.dims = ni0 :: ni1 :: n :: cs)
    (hW : ∀ j0 : Nat, j0 < nj0 → (W j0).WF ∧ (W j0).dims = [n, nj1 * k] ∧
      (W j0).Holds m0 (fun ix => Wf [j0, ix.getD 1 0 / k, ix.headD 0, ix.getD 1 0 % k]) ∧ In P (W j0))
    (hX : ∀ p0' i1 : Nat, p0' < np0 → i1 < ni1 → (X p0' i1).WF ∧ (X p0' i1).dims = (nj1 * k) :: cs ∧
      (X p0' i1).Holds m0 (fun ix => Xf (p0' :: (i1 + ix.headD 0 / k) :: (ix.headD 0 % k) :: ix.tail)) ∧ In P (X p0' i1))
    (hfit : ni1 + nj1 ≤ np1 + 1) :
    Acc P m0 (fun m => loop ni0 m fun i0 m => loop ni1 m fun i1 m =>
      loopI (max 0 (p0 - i0)) (min (nj0 : Int) (np0 - i0 + p0)) m fun j0 m =>
        prod ((r.sub i0).sub i1) (W j0) (X (i0 + j0 - p0) i1) m)
      (spread r (fwd2 p0 0 nj0 np0 nj1 np1 k Wf Xf)) := by
  refine acc_axis hr dr fun i0 hi0 => ?_
  have d1 : (r.sub i0).dims = ni1 :: n :: cs := by simp [SV.sub, dr]
  refine acc_axis (hr.sub i0) d1 fun i1 hi1 => ?_
  have d2 : ((r.sub i0).sub i1).dims = n :: cs := by simp [SV.sub, dr]
  refine acc_same (acc_win (np := np0) (F := fun j0 p0' ix => sumTo (nj1 * k) fun t =>
    Wf [j0, t / k, ix.headD 0, t % k] * Xf (p0' :: (i1 + t / k) :: (t % k) :: ix.tail)) fun j0 p0' hj0 hp0 e0 => ?_) ?_
  · obtain ⟨w1, w2, w3, w4⟩ := hW j0 hj0
    obtain ⟨x1, x2, x3, x4⟩ := hX p0' i1 hp0 hi1
    refine acc_prog (hprod n (nj1 * k) ((r.sub i0).sub i1) (W j0) (X p0' i1) P m0 _ _ ((hr.sub i0).sub i1) w1 x1 d2 w2 x2
      w3 x3 w4 x4 (Has_sub (hr.sub i0) d1 hi1 (Has_sub hr dr hi0 ar)) (Out_sub (hr.sub i0) d1 hi1 (Out_sub hr dr hi0 or)))
      fun m => ?_
    rw [e0]
  · intro jx hjx
    rw [d2] at hjx
    match jx, hjx.length with
    | a :: cx, _ =>
      simp only [fwd2, List.headD_cons, List.tail_cons]
      refine sumTo_congr fun j0 _ => sumTo_congr fun p0' _ => ?_
      congr 1
      rw [sumTo_prod]
      refine sumTo_congr fun j1 hj1 => ?_
      rw [sumTo_single (i1 + j1) (by omega) fun p1 _ hne => if_neg fun e => hne (by omega)]
      rw [if_pos (by push_cast; omega)]
      refine sumTo_congr fun b hb => ?_
      have e1 : (j1 * k + b) / k = j1 := by
        rw [Nat.mul_comm, Nat.mul_add_div (by omega), Nat.div_eq_of_lt hb, Nat.add_zero]
      have e2 : (j1 * k + b) % k = b := by
        rw [Nat.mul_comm, Nat.mul_add_mod, Nat.mod_eq_of_lt hb]
      rw [e1, e2]

theorem acc3 (hx : x.WF) (hw : w.WF) {ni0 ni1 ni2 np0 np1 np2 nj0 nj1 nj2 nj2' n k : Nat} (p0 p1 p2 : Int)
    (dr : r.dims = ni0 :: ni1 :: ni2 :: n :: cs) (dx : x.dims = np0 :: np1 :: np2 :: k :: cs)
    (dw : w.dims = [nj0, nj1, nj2, n, k]) (hle : nj2' ≤ nj2)
    (vx : x.Holds m0 Xf) (vw : w.Holds m0 Wf) (ix : In P x) (iw : In P w) :
    Acc P m0 (fun m => loop ni0 m fun i0 m => loop ni1 m fun i1 m => loop ni2 m fun i2 m =>
      loopI (max 0 (p0 - i0)) (min (nj0 : Int) (np0 - i0 + p0)) m fun j0 m =>
        loopI (max 0 (p1 - i1)) (min (nj1 : Int) (np1 - i1 + p1)) m fun j1 m =>
          loopI (max 0 (p2 - i2)) (min (nj2' : Int) (np2 - i2 + p2)) m fun j2 m =>
            prod (((r.sub i0).sub i1).sub i2) (((w.sub j0).sub j1).sub j2)
              (((x.sub (i0 + j0 - p0)).sub (i1 + j1 - p1)).sub (i2 + j2 - p2)) m)
      (spread r (fwd3 p0 p1 p2 nj0 np0 nj1 np1 nj2' np2 k Wf Xf)) := by
  refine acc_axis hr dr fun i0 hi0 => ?_
  have d1 : (r.sub i0).dims = ni1 :: ni2 :: n :: cs := by simp [SV.sub, dr]
  refine acc_axis (hr.sub i0) d1 fun i1 hi1 => ?_
  have d2 : ((r.sub i0).sub i1).dims = ni2 :: n :: cs := by simp [SV.sub, dr]
  refine acc_axis ((hr.sub i0).sub i1) d2 fun i2 hi2 => ?_
  have d3 : (((r.sub i0).sub i1).sub i2).dims = n :: cs := by simp [SV.sub, dr]
  refine acc_same (acc_win (np := np0) (F := fun j0 p0' ix => sumTo nj1 fun j1 => sumTo np1 fun p1' =>
    if (i1 : Int) + j1 - p1 = p1' then sumTo nj2' fun j2 => sumTo np2 fun p2' =>
      if (i2 : Int) + j2 - p2 = p2' then
        sumTo k fun b => Wf [j0, j1, j2, ix.headD 0, b] * Xf (p0' :: p1' :: p2' :: b :: ix.tail) else 0 else 0)
    fun j0 p0' hj0 hp0 e0 => acc_win (np := np1) fun j1 p1' hj1 hp1 e1 => acc_win (np := np2) fun j2 p2' hj2 hp2 e2 => ?_) ?_
  · have w1 : (w.sub j0).dims = [nj1, nj2, n, k] := by simp [SV.sub, dw]
    have w2 : ((w.sub j0).sub j1).dims = [nj2, n, k] := by simp [SV.sub, dw]
    have x1 : (x.sub p0').dims = np1 :: np2 :: k :: cs := by simp [SV.sub, dx]
    have x2 : ((x.sub p0').sub p1').dims = np2 :: k :: cs := by simp [SV.sub, dx]
    have hw1 := hw.sub j0
    have hw2 := hw1.sub j1
    have hx1 := hx.sub p0'
    have hx2 := hx1.sub p1'
    have hr1 := hr.sub i0
    have hr2 := hr1.sub i1
    have hj2' : j2 < nj2 := by omega
    refine acc_prog (hprod n k (((r.sub i0).sub i1).sub i2) (((w.sub j0).sub j1).sub j2) (((x.sub p0').sub p1').sub p2') P m0
        (fun ix => Wf (j0 :: j1 :: j2 :: ix)) (fun ix => Xf (p0' :: p1' :: p2' :: ix))
        (hr2.sub i2) (hw2.sub j2) (hx2.sub p2') d3 (by simp [SV.sub, dw]) (by simp [SV.sub, dx])
        (Holds_sub hw2 w2 hj2' (Holds_sub hw1 w1 hj1 (Holds_sub hw dw hj0 vw)))
        (Holds_sub hx2 x2 hp2 (Holds_sub hx1 x1 hp1 (Holds_sub hx dx hp0 vx)))
        (In_sub hw2 w2 hj2' (In_sub hw1 w1 hj1 (In_sub hw dw hj0 iw)))
        (In_sub hx2 x2 hp2 (In_sub hx1 x1 hp1 (In_sub hx dx hp0 ix)))
        (Has_sub hr2 d2 hi2 (Has_sub hr1 d1 hi1 (Has_sub hr dr hi0 ar)))
        (Out_sub hr2 d2 hi2 (Out_sub hr1 d1 hi1 (Out_sub hr dr hi0 or)))) fun m => ?_
    rw [e0, e1, e2]
  · intro jx hjx
    rw [d3] at hjx
    match jx, hjx.length with
    | a :: cx, _ => rfl

theorem acc3f {ni0 ni1 ni2 np0 np1 np2 nj0 nj1 nj2 n k : Nat} (p0 p1 : Int) (W : Int → Int → SV) (X : Int → Int → Nat → SV)
    (dr : r.dims = ni0 :: ni1 :: ni2 :: n :: cs)
    (hW : ∀ j0 j1 : Nat, j0 < nj0 → j1 < nj1 → (W j0 j1).WF ∧ (W j0 j1).dims = [n, nj2 * k] ∧
      (W j0 j1).Holds m0 (fun ix => Wf [j0, j1, ix.getD 1 0 / k, ix.headD 0, ix.getD 1 0 % k]) ∧ In P (W j0 j1))
    (hX : ∀ p0' p1' i2 : Nat, p0' < np0 → p1' < np1 → i2 < ni2 → (X p0' p1' i2).WF ∧ (X p0' p1' i2).dims = (nj2 * k) :: cs ∧
      (X p0' p1' i2).Holds m0 (fun ix => Xf (p0' :: p1' :: (i2 + ix.headD 0 / k) :: (ix.headD 0 % k) :: ix.tail)) ∧
      In P (X p0' p1' i2))
    (hfit : ni2 + nj2 ≤ np2 + 1) :
    Acc P m0 (fun m => loop ni0 m fun i0 m => loop ni1 m fun i1 m => loop ni2 m fun i2 m =>
      loopI (max 0 (p0 - i0)) (min (nj0 : Int) (np0 - i0 + p0)) m fun j0 m =>
        loopI (max 0 (p1 - i1)) (min (nj1 : Int) (np1 - i1 + p1)) m fun j1 m =>
          prod (((r.sub i0).sub i1).sub i2) (W j0 j1) (X (i0 + j0 - p0) (i1 + j1 - p1) i2) m)
      (spread r (fwd3 p0 p1 0 nj0 np0 nj1 np1 nj2 np2 k Wf Xf)) := by
  refine acc_axis hr dr fun i0 hi0 => ?_
  have d1 : (r.sub i0).dims = ni1 :: ni2 :: n :: cs := by simp [SV.sub, dr]
  refine acc_axis (hr.sub i0) d1 fun i1 hi1 => ?_
  have d2 : ((r.sub i0).sub i1).dims = ni2 :: n :: cs := by simp [SV.sub, dr]
  refine acc_axis ((hr.sub i0).sub i1) d2 fun i2 hi2 => ?_
  have d3 : (((r.sub i0).sub i1).sub i2).dims = n :: cs := by simp [SV.sub, dr]
  have hr1 := hr.sub i0
  have hr2 := hr1.sub i1
  refine acc_same (acc_win (np := np0) (F := fun j0 p0' ix => sumTo nj1 fun j1 => sumTo np1 fun p1' =>
    if (i1 : Int) + j1 - p1 = p1' then sumTo (nj2 * k) fun t =>
      Wf [j0, j1, t / k, ix.headD 0, t % k] * Xf (p0' :: p1' :: (i2 + t / k) :: (t % k) :: ix.tail) else 0)
    fun j0 p0' hj0 hp0 e0 => acc_win (np := np1) fun j1 p1' hj1 hp1 e1 => ?_) ?_
  · obtain ⟨w1, w2, w3, w4⟩ := hW j0 j1 hj0 hj1
    obtain ⟨x1, x2, x3, x4⟩ := hX p0' p1' i2 hp0 hp1 hi2
    refine acc_prog (hprod n (nj2 * k) (((r.sub i0).sub i1).sub i2) (W j0 j1) (X p0' p1' i2) P m0 _ _ (hr2.sub i2) w1 x1 d3
      w2 x2 w3 x3 w4 x4 (Has_sub hr2 d2 hi2 (Has_sub hr1 d1 hi1 (Has_sub hr dr hi0 ar)))
        (Out_sub hr2 d2 hi2 (Out_sub hr1 d1 hi1 (Out_sub hr dr hi0 or)))) fun m => ?_
    rw [e0, e1]
  · intro jx hjx
    rw [d3] at hjx
    match jx, hjx.length with
    | a :: cx, _ =>
      simp only [fwd3, List.headD_cons, List.tail_cons]
      refine sumTo_congr fun j0 _ => sumTo_congr fun p0' _ => ?_
      congr 1
      refine sumTo_congr fun j1 _ => sumTo_congr fun p1' _ => ?_
      congr 1
      rw [sumTo_prod]
      refine sumTo_congr fun j2 hj2 => ?_
      rw [sumTo_single (i2 + j2) (by omega) fun p1 _ hne => if_neg fun e => hne (by omega)]
      rw [if_pos (by push_cast; omega)]
      refine sumTo_congr fun b hb => ?_
      have e1 : (j2 * k + b) / k = j2 := by
        rw [Nat.mul_comm, Nat.mul_add_div (by omega), Nat.div_eq_of_lt hb, Nat.add_zero]
      have e2 : (j2 * k + b) % k = b := by
        rw [Nat.mul_comm, Nat.mul_add_mod, Nat.mod_eq_of_lt hb]
      rw [e1, e2]

end

end RConv
end Cnine
