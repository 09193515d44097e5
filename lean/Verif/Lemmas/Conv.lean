import Verif.Lemmas.Adds
import Verif.Lemmas.Elem

/-! # Loops over the window of a filter, and products of slices -/

namespace Cnine

open Conv

variable {α : Type}

/-- `Σ_{i<n} F i`. -/
def sumTo [AddCommMonoid α] (n : Nat) (F : Nat → α) : α := ((List.range n).map F).sum

theorem sumTo_congr [AddCommMonoid α] {n : Nat} {F G : Nat → α} (h : ∀ i, i < n → F i = G i) : sumTo n F = sumTo n G :=
  congrArg List.sum (List.map_congr_left fun i hi => h i (List.mem_range.1 hi))

theorem sumTo_comm [AddCommMonoid α] (n k : Nat) (F : Nat → Nat → α) :
    (sumTo n fun i => sumTo k fun j => F i j) = sumTo k fun j => sumTo n fun i => F i j :=
  sum_comm' _ _ _

theorem sumTo_zero [AddCommMonoid α] (n : Nat) : (sumTo n fun _ => (0 : α)) = 0 := sum_map_zero' _

theorem sumTo_eq_zero [AddCommMonoid α] {n : Nat} {F : Nat → α} (h : ∀ i, i < n → F i = 0) : sumTo n F = 0 := by
  rw [sumTo_congr h]; exact sumTo_zero n

theorem sumTo_single [AddCommMonoid α] {n : Nat} {F : Nat → α} (i : Nat) (hi : i < n) (h : ∀ j, j < n → j ≠ i → F j = 0) :
    sumTo n F = F i :=
  sum_single _ List.nodup_range F i (List.mem_range.2 hi) fun j hj => h j (List.mem_range.1 hj)

theorem sumTo_add [AddCommMonoid α] (a b : Nat) (F : Nat → α) : sumTo (a + b) F = sumTo a F + sumTo b fun i => F (a + i) := by
  unfold sumTo
  rw [List.range_add, List.map_append, List.sum_append, List.map_map]
  rfl

theorem sumTo_succ [AddCommMonoid α] (n : Nat) (F : Nat → α) : sumTo (n + 1) F = sumTo n F + F n := by
  rw [sumTo_add]; simp [sumTo]

theorem sumTo_succ' [AddCommMonoid α] (n : Nat) (F : Nat → α) : sumTo (n + 1) F = F 0 + sumTo n fun i => F (i + 1) := by
  rw [Nat.add_comm, sumTo_add]
  simp only [Nat.add_comm]
  simp [sumTo]

theorem sumTo_rev [AddCommMonoid α] (n : Nat) (F : Nat → α) : (sumTo n fun i => F (n - 1 - i)) = sumTo n F := by
  induction n with
  | zero => rfl
  | succ n ih =>
    rw [sumTo_succ', sumTo_succ, ← ih, add_comm]
    refine congrArg₂ (· + ·) (sumTo_congr fun i hi => ?_) (by simp)
    congr 1
    omega

theorem sumTo_mul [NonUnitalNonAssocSemiring α] (n : Nat) (F : Nat → α) (a : α) : sumTo n F * a = sumTo n fun i => F i * a := by
  unfold sumTo
  induction List.range n with
  | nil => simp
  | cons i l ih => simp [add_mul, ih]

theorem mul_sumTo [NonUnitalNonAssocSemiring α] (n : Nat) (F : Nat → α) (a : α) : a * sumTo n F = sumTo n fun i => a * F i := by
  unfold sumTo
  induction List.range n with
  | nil => simp
  | cons i l ih => simp [mul_add, ih]

theorem loop_sumTo [AddCommMonoid α] (n : Nat) (t0 : α) (body : Nat → α → Res α) (g : Nat → α)
    (h : ∀ k, k < n → ∀ t, body k t = .ok (t + g k)) : loop n t0 body = .ok (t0 + sumTo n g) := by
  unfold loop sumTo
  have : ∀ (l : List Nat) (t : α), (∀ k ∈ l, k < n) →
      Res.forM l t (fun s i => body i s) = .ok (t + (l.map g).sum) := by
    intro l
    induction l with
    | nil => intro t _; simp
    | cons a l ih =>
      intro t hl
      rw [Res.forM_cons, h a (hl a (by simp)), Res.ok_bind, ih _ fun k hk => hl k (by simp [hk])]
      simp [add_assoc]
  exact this _ _ fun k hk => List.mem_range.1 hk

/-! ## The window -/

theorem win_mem {W x0 i k : Nat} {pad : Int}
    (hk : k < (min (W : Int) (x0 - i + pad) - max 0 (pad - i)).toNat) :
    ∃ j p : Nat, max 0 (pad - i) + (k : Int) = j ∧ j < W ∧ (i : Int) + j - pad = p ∧ p < x0 :=
  ⟨(max 0 (pad - i) + k).toNat, ((i : Int) + (max 0 (pad - i) + k) - pad).toNat, by omega, by omega, by omega, by omega⟩

theorem win_sum [AddCommMonoid α] (W x0 i : Nat) (pad : Int) (g : Int → α) (F : Nat → Nat → α)
    (hF : ∀ j p : Nat, j < W → p < x0 → (i : Int) + j - pad = p → g j = F j p) :
    (sumTo (min (W : Int) (x0 - i + pad) - max 0 (pad - i)).toNat fun (k : Nat) => g (max 0 (pad - i) + (k : Int))) =
      sumTo W fun j => sumTo x0 fun p => if (i : Int) + j - pad = p then F j p else 0 := by
  by_cases hempty : min (W : Int) (x0 - i + pad) ≤ max 0 (pad - i)
  · rw [show (min (W : Int) (x0 - i + pad) - max 0 (pad - i)).toNat = 0 by omega]
    refine Eq.trans (by simp [sumTo]) (Eq.symm (sumTo_eq_zero (F := fun j => sumTo x0 fun p => if (i : Int) + j - pad = p then F j p else 0) ?_))
    intro j hj
    refine sumTo_eq_zero fun p hp => if_neg fun e => ?_
    omega
  · obtain ⟨a, ha⟩ : ∃ a : Nat, (a : Int) = max 0 (pad - i) := ⟨(max 0 (pad - i)).toNat, by omega⟩
    obtain ⟨n, hn⟩ : ∃ n : Nat, (n : Int) = min (W : Int) (x0 - i + pad) - max 0 (pad - i) :=
      ⟨(min (W : Int) (x0 - i + pad) - max 0 (pad - i)).toNat, by omega⟩
    obtain ⟨c, hc⟩ : ∃ c : Nat, W = a + (n + c) := ⟨W - (a + n), by omega⟩
    rw [show (min (W : Int) (x0 - i + pad) - max 0 (pad - i)).toNat = n by omega, ← ha]
    conv_rhs => rw [hc, sumTo_add, sumTo_add]
    have z1 : (sumTo a fun j => sumTo x0 fun p => if (i : Int) + j - pad = p then F j p else 0) = 0 :=
      sumTo_eq_zero fun j hj => sumTo_eq_zero fun p hp => if_neg (by omega)
    have z2 : (sumTo c fun j => sumTo x0 fun p =>
        if (i : Int) + ((a + (n + j) : Nat) : Int) - pad = p then F (a + (n + j)) p else 0) = 0 :=
      sumTo_eq_zero fun j hj => sumTo_eq_zero fun p hp => if_neg (by push_cast; omega)
    rw [z1, z2, zero_add, add_zero]
    refine sumTo_congr fun k hk => ?_
    obtain ⟨p, hp⟩ : ∃ p : Nat, (p : Int) = (i : Int) + ((a + k : Nat) : Int) - pad :=
      ⟨((i : Int) + ((a + k : Nat) : Int) - pad).toNat, by push_cast; omega⟩
    have hpx : p < x0 := by push_cast at hp; omega
    have e1 := sumTo_single (n := x0) (F := fun p => if (i : Int) + ((a + k : Nat) : Int) - pad = p then F (a + k) p else 0) p hpx
      (fun q _ hq => if_neg fun e => hq (by omega))
    rw [e1]
    rw [if_pos hp.symm, ← hF (a + k) p (by omega) hpx hp.symm]
    push_cast; rfl

theorem Acc.loopI [AddCommMonoid α] {P : Nat → Prop} {m0 : Buf α} (W x0 i : Nat) (pad : Int) (body : Int → Buf α → Res (Buf α))
    (f : Nat → Nat → Nat → α)
    (h : ∀ j p : Nat, j < W → p < x0 → (i : Int) + j - pad = p → Acc P m0 (body j) (f j p)) :
    Acc P m0 (fun m => loopI (max 0 (pad - i)) (min (W : Int) (x0 - i + pad)) m body)
      (fun c => sumTo W fun j => sumTo x0 fun p => if (i : Int) + j - pad = p then f j p c else 0) := by
  refine Acc.congr (Acc.forM (List.range (min (W : Int) (x0 - i + pad) - max 0 (pad - i)).toNat)
    (fun s k => body (max 0 (pad - i) + (k : Int)) s)
    (fun k c => f (max 0 (pad - i) + (k : Int)).toNat ((i : Int) + (max 0 (pad - i) + (k : Int)) - pad).toNat c) ?_)
    (fun m _ => rfl) ?_
  · intro k hk
    obtain ⟨j, p, e1, e2, e3, e4⟩ := win_mem (List.mem_range.1 hk)
    rw [e1, Int.toNat_natCast, e3, Int.toNat_natCast]
    exact h j p e2 e4 e3
  · intro c
    refine (win_sum W x0 i pad (fun j => f j.toNat ((i : Int) + j - pad).toNat c) (fun j p => f j p c) ?_).symm
    intro j p hj hp e
    rw [Int.toNat_natCast, e, Int.toNat_natCast]

theorem loopI_sum [AddCommMonoid α] (W x0 i : Nat) (pad : Int) (t0 : α) (body : Int → α → Res α) (g : Nat → Nat → α)
    (h : ∀ j p : Nat, j < W → p < x0 → (i : Int) + j - pad = p → ∀ t, body j t = .ok (t + g j p)) :
    loopI (max 0 (pad - i)) (min (W : Int) (x0 - i + pad)) t0 body =
      .ok (t0 + sumTo W fun j => sumTo x0 fun p => if (i : Int) + j - pad = p then g j p else 0) := by
  have := loop_sumTo (min (W : Int) (x0 - i + pad) - max 0 (pad - i)).toNat t0
    (fun k t => body (max 0 (pad - i) + (k : Int)) t)
    (fun k => g (max 0 (pad - i) + (k : Int)).toNat ((i : Int) + (max 0 (pad - i) + (k : Int)) - pad).toNat) (by
      intro k hk t
      obtain ⟨j, p, e1, e2, e3, e4⟩ := win_mem hk
      rw [e1, Int.toNat_natCast, e3, Int.toNat_natCast]
      exact h j p e2 e4 e3 t)
  unfold Conv.loopI
  rw [show Res.forM (List.range (min (W : Int) (x0 - i + pad) - max 0 (pad - i)).toNat) t0
    (fun s k => body (max 0 (pad - i) + (k : Int)) s) = _ from this]
  congr 2
  refine win_sum W x0 i pad (fun j => g j.toNat ((i : Int) + j - pad).toNat) g ?_
  intro j p hj hp e
  rw [Int.toNat_natCast, e, Int.toNat_natCast]

/-! ## Products -/

/-- `prod R W X` adds the product of the matrix `W` and the tensor `X` (of shape `k::cs`) to `R` (of shape `n::cs`). -/
def IsProd [NonUnitalNonAssocSemiring α] (prod : SV → SV → SV → Buf α → Res (Buf α)) (cs : List Nat) : Prop :=
  ∀ (n k : Nat) (R W X : SV) (P : Nat → Prop) (m0 : Buf α) (Wf Xf : List Nat → α), R.WF → W.WF → X.WF →
    R.dims = n :: cs → W.dims = [n, k] → X.dims = k :: cs → W.Holds m0 Wf → X.Holds m0 Xf → In P W → In P X →
    R.Has m0 → Out P R →
    Acc P m0 (prod R W X) (spread R fun ix => sumTo k fun a => Wf [ix.headD 0, a] * Xf (a :: ix.tail))

theorem mvprod_isProd [NonUnitalNonAssocSemiring α] : IsProd (α := α) SV.addMvprod [] := by
  intro n k R W X P m0 Wf Xf hR hW hX dR dW dX vW vX iW iX aR oR
  refine Acc.congr (Acc.loop n (fun i m => do
      let t ← loop k (0 : α) fun a t => do
        let c ← W.at2 i a
        let p ← rd m c
        let b ← X.at1 a
        let q ← rd m b
        .ok (t + p * q)
      let c ← R.at1 i
      inc m c t)
    (fun i => spread (R.sub i) fun ix => sumTo k fun a => Wf [(i :: ix).headD 0, a] * Xf (a :: (i :: ix).tail)) ?_) ?_ ?_
  · intro i hi
    have hin : InRange [i] R.dims := by rw [dR]; simpa [InRange] using hi
    refine Acc.congr (Acc.inc (t := sumTo k fun a => Wf [i, a] * Xf [a]) (aR [i] hin) (oR [i] hin)) (fun m hm => ?_) fun c => ?_
    · rw [loop_sumTo k 0 _ (fun a => Wf [i, a] * Xf [a]), zero_add, Res.ok_bind, R.at1_eq hR dR, Res.ok_bind]
      intro a ha t
      have h1 : InRange [i, a] W.dims := by rw [dW]; simp [InRange, hi, ha]
      have h2 : InRange [a] X.dims := by rw [dX]; simp [InRange, ha]
      rw [W.at2_eq hW dW, Res.ok_bind, hm.rd (vW _ h1) (iW _ h1), Res.ok_bind, X.at1_eq hX dX, Res.ok_bind,
        hm.rd (vX _ h2) (iX _ h2), Res.ok_bind]
    · rw [spread_nil _ (by simp [SV.sub, dR]), R.sub_cell (hR.strides_ne dR)]
      rfl
  · intro m _
    simp only [SV.addMvprod, Res.get, dR, dW, dX, List.getElem?_cons_zero, List.getElem?_cons_succ, Res.ok_bind, decide_true,
      Res.assrt_true]
  · intro c
    exact (spread_cons R hR dR _ c).symm

theorem mprod_isProd [NonUnitalNonAssocSemiring α] (l : Nat) : IsProd (α := α) SV.addMprod [l] := by
  intro n k R W X P m0 Wf Xf hR hW hX dR dW dX vW vX iW iX aR oR
  refine Acc.congr (Acc.loop n (fun a m => loop l m fun b m => do
      let t ← loop k (0 : α) fun i t => do
        let p ← W.at2 a i
        let u ← rd m p
        let q ← X.at2 i b
        let v ← rd m q
        .ok (t + u * v)
      let c ← R.at2 a b
      inc m c t)
    (fun i => spread (R.sub i) fun ix => sumTo k fun a => Wf [(i :: ix).headD 0, a] * Xf (a :: (i :: ix).tail)) ?_) ?_ ?_
  · intro i hi
    have dS : (R.sub i).dims = [l] := by simp [SV.sub, dR]
    refine Acc.congr (Acc.loop l _ (fun b => spread ((R.sub i).sub b) fun ix => sumTo k fun a => Wf [i, a] * Xf (a :: b :: ix)) ?_)
      (fun _ _ => rfl) (fun c => (spread_cons (R.sub i) (hR.sub i) dS _ c).symm)
    intro j hj
    have hin : InRange [i, j] R.dims := by rw [dR]; simp [InRange, hi, hj]
    refine Acc.congr (Acc.inc (t := sumTo k fun a => Wf [i, a] * Xf [a, j]) (aR [i, j] hin) (oR [i, j] hin)) (fun m hm => ?_)
      fun c => ?_
    · rw [loop_sumTo k 0 _ (fun a => Wf [i, a] * Xf [a, j]), zero_add, Res.ok_bind, R.at2_eq hR dR, Res.ok_bind]
      intro a ha t
      have h1 : InRange [i, a] W.dims := by rw [dW]; simp [InRange, hi, ha]
      have h2 : InRange [a, j] X.dims := by rw [dX]; simp [InRange, ha, hj]
      rw [W.at2_eq hW dW, Res.ok_bind, hm.rd (vW _ h1) (iW _ h1), Res.ok_bind, X.at2_eq hX dX, Res.ok_bind,
        hm.rd (vX _ h2) (iX _ h2), Res.ok_bind]
    · rw [spread_nil _ (by simp [SV.sub, dR]), (R.sub i).sub_cell ((hR.sub i).strides_ne dS), R.sub_cell (hR.strides_ne dR)]
  · intro m _
    simp only [SV.addMprod, Res.get, dR, dW, dX, List.getElem?_cons_zero, List.getElem?_cons_succ, Res.ok_bind, decide_true,
      Res.assrt_true, List.length_cons, List.length_nil]
  · intro c
    exact (spread_cons R hR dR _ c).symm

/-! ## The convolutions, as programs that add -/

/-- `Σ_{j,p : i+j-pad=p} Σ_b W(j,a,b) X(p,b,cx)` at index `(i,a,cx)`. -/
def fwd1 [NonUnitalNonAssocSemiring α] (pad : Int) (nj np k : Nat) (Wf Xf : List Nat → α) : List Nat → α
  | i :: a :: cx => sumTo nj fun j => sumTo np fun p =>
      if (i : Int) + j - pad = p then sumTo k fun b => Wf [j, a, b] * Xf (p :: b :: cx) else 0
  | _ => 0

/-- The contributions of the window positions add up. -/
theorem spread_window [AddCommMonoid α] (v : SV) (nj np i : Nat) (pad : Int) (F : Nat → Nat → List Nat → α) (c : Nat) :
    (sumTo nj fun j => sumTo np fun p => if (i : Int) + j - pad = p then spread v (F j p) c else 0) =
      spread v (fun ix => sumTo nj fun j => sumTo np fun p => if (i : Int) + j - pad = p then F j p ix else 0) c := by
  unfold sumTo
  rw [← spread_sum]
  refine congrArg List.sum (List.map_congr_left fun j _ => ?_)
  rw [← spread_sum]
  refine congrArg List.sum (List.map_congr_left fun p _ => ?_)
  by_cases e : (i : Int) + j - pad = p
  · simp only [if_pos e]
  · simp only [if_neg e]
    simp [spread]

theorem conv1d2_acc [NonUnitalNonAssocSemiring α] {prod : SV → SV → SV → Buf α → Res (Buf α)} {cs : List Nat}
    (hprod : IsProd prod cs) {r x w : SV} (hr : r.WF) (hx : x.WF) (hw : w.WF) {ni np nj n k : Nat}
    (dr : r.dims = ni :: n :: cs) (dx : x.dims = np :: k :: cs) (dw : w.dims = [nj, n, k]) {P : Nat → Prop} {m0 : Buf α}
    {Xf Wf : List Nat → α} (vx : x.Holds m0 Xf) (vw : w.Holds m0 Wf) (ix : In P x) (iw : In P w) (ar : r.Has m0) (or : Out P r) :
    Acc P m0 (conv1d2 prod r x w nj) (spread r (fwd1 (padOf ni np nj) nj np k Wf Xf)) := by
  refine Acc.congr (Acc.loop ni (fun i m => do
      let R ← r.slice 0 i
      loopI (max 0 (padOf ni np nj - i)) (min (nj : Int) (np - i + padOf ni np nj)) m fun j0 m => do
        let W ← w.slice 0 j0
        let X ← x.slice 0 (i + j0 - padOf ni np nj)
        prod R W X m)
    (fun i => spread (r.sub i) fun ix => fwd1 (padOf ni np nj) nj np k Wf Xf (i :: ix)) ?_) ?_
    (fun c => (spread_cons r hr dr _ c).symm)
  · intro i hi
    have dS : (r.sub i).dims = n :: cs := by simp [SV.sub, dr]
    refine Acc.congr (Acc.loopI nj np i (padOf ni np nj) (fun j0 m => do
        let W ← w.slice 0 j0
        let X ← x.slice 0 (i + j0 - padOf ni np nj)
        prod (r.sub i) W X m)
      (fun j p => spread (r.sub i) fun ix => sumTo k fun a => Wf [j, ix.headD 0, a] * Xf (p :: a :: ix.tail)) ?_)
      (fun m _ => by rw [r.slice_eq hr dr, Res.ok_bind]) fun c => ?_
    · intro j p hj hp e
      refine Acc.congr (hprod n k (r.sub i) (w.sub j) (x.sub p) P m0 (fun ix => Wf (j :: ix)) (fun ix => Xf (p :: ix))
        (hr.sub i) (hw.sub j) (hx.sub p) dS (by simp [SV.sub, dw]) (by simp [SV.sub, dx]) (Holds_sub hw dw hj vw)
        (Holds_sub hx dx hp vx) (In_sub hw dw hj iw) (In_sub hx dx hp ix) (Has_sub hr dr hi ar) (Out_sub hr dr hi or)) ?_
        (fun c => rfl)
      intro m _
      rw [w.slice_eq hw dw, Res.ok_bind, e, x.slice_eq hx dx, Res.ok_bind]
    · rw [spread_window]
      refine spread_congr _ (fun ix hix => ?_) c
      rw [dS] at hix
      match ix, hix.length with
      | a :: cx, _ => rfl
  · intro m _
    simp only [conv1d2, Res.get, dr, dw, dx, List.getElem?_cons_zero, Res.ok_bind, decide_true, Res.assrt_true,
      List.length_cons, List.length_nil]

/-- `Σ_{j0,p0 : i0+j0-pad0=p0} Σ_{j1,p1 : i1+j1-pad1=p1} Σ_b W(j0,j1,a,b) X(p0,p1,b,cx)` at index `(i0,i1,a,cx)`. -/
def fwd2 [NonUnitalNonAssocSemiring α] (pad0 pad1 : Int) (nj0 np0 nj1 np1 k : Nat) (Wf Xf : List Nat → α) : List Nat → α
  | i0 :: i1 :: a :: cx => sumTo nj0 fun j0 => sumTo np0 fun p0 =>
      if (i0 : Int) + j0 - pad0 = p0 then
        sumTo nj1 fun j1 => sumTo np1 fun p1 =>
          if (i1 : Int) + j1 - pad1 = p1 then sumTo k fun b => Wf [j0, j1, a, b] * Xf (p0 :: p1 :: b :: cx) else 0
      else 0
  | _ => 0

theorem conv2d3_acc [NonUnitalNonAssocSemiring α] {prod : SV → SV → SV → Buf α → Res (Buf α)} {cs : List Nat}
    (hprod : IsProd prod cs) {r x w : SV} (hr : r.WF) (hx : x.WF) (hw : w.WF) {ni0 ni1 np0 np1 nj0 nj1 n k : Nat}
    (dr : r.dims = ni0 :: ni1 :: n :: cs) (dx : x.dims = np0 :: np1 :: k :: cs) (dw : w.dims = [nj0, nj1, n, k])
    {P : Nat → Prop} {m0 : Buf α} {Xf Wf : List Nat → α} (vx : x.Holds m0 Xf) (vw : w.Holds m0 Wf) (ix : In P x) (iw : In P w)
    (ar : r.Has m0) (or : Out P r) :
    Acc P m0 (conv2d3 prod r x w nj0 nj1)
      (spread r (fwd2 (padOf ni0 np0 nj0) (padOf ni1 np1 nj1) nj0 np0 nj1 np1 k Wf Xf)) := by
  refine Acc.congr (Acc.loop ni0 (fun i0 m => loop ni1 m fun i1 m => do
      let R ← r.slice 0 i0
      let R ← R.slice 0 i1
      loopI (max 0 (padOf ni0 np0 nj0 - i0)) (min (nj0 : Int) (np0 - i0 + padOf ni0 np0 nj0)) m fun j0 m =>
        loopI (max 0 (padOf ni1 np1 nj1 - i1)) (min (nj1 : Int) (np1 - i1 + padOf ni1 np1 nj1)) m fun j1 m => do
          let W ← w.slice 0 j0
          let W ← W.slice 0 j1
          let X ← x.slice 0 (i0 + j0 - padOf ni0 np0 nj0)
          let X ← X.slice 0 (i1 + j1 - padOf ni1 np1 nj1)
          prod R W X m)
    (fun i0 => spread (r.sub i0) fun ix => fwd2 (padOf ni0 np0 nj0) (padOf ni1 np1 nj1) nj0 np0 nj1 np1 k Wf Xf (i0 :: ix)) ?_) ?_
    (fun c => (spread_cons r hr dr _ c).symm)
  · intro i0 hi0
    have d1 : (r.sub i0).dims = ni1 :: n :: cs := by simp [SV.sub, dr]
    refine Acc.congr (Acc.loop ni1 _ (fun i1 => spread ((r.sub i0).sub i1) fun ix =>
      fwd2 (padOf ni0 np0 nj0) (padOf ni1 np1 nj1) nj0 np0 nj1 np1 k Wf Xf (i0 :: i1 :: ix)) ?_)
      (fun _ _ => rfl) (fun c => (spread_cons (r.sub i0) (hr.sub i0) d1 _ c).symm)
    intro i1 hi1
    have d2 : ((r.sub i0).sub i1).dims = n :: cs := by simp [SV.sub, dr]
    refine Acc.congr (Acc.loopI nj0 np0 i0 (padOf ni0 np0 nj0) (fun j0 m =>
        loopI (max 0 (padOf ni1 np1 nj1 - i1)) (min (nj1 : Int) (np1 - i1 + padOf ni1 np1 nj1)) m fun j1 m => do
          let W ← w.slice 0 j0
          let W ← W.slice 0 j1
          let X ← x.slice 0 (i0 + j0 - padOf ni0 np0 nj0)
          let X ← X.slice 0 (i1 + j1 - padOf ni1 np1 nj1)
          prod ((r.sub i0).sub i1) W X m)
      (fun j0 p0 => spread ((r.sub i0).sub i1) fun ix => sumTo nj1 fun j1 => sumTo np1 fun p1 =>
        if (i1 : Int) + j1 - padOf ni1 np1 nj1 = p1 then
          sumTo k fun b => Wf [j0, j1, ix.headD 0, b] * Xf (p0 :: p1 :: b :: ix.tail) else 0) ?_)
      (fun m _ => by rw [r.slice_eq hr dr, Res.ok_bind, (r.sub i0).slice_eq (hr.sub i0) d1, Res.ok_bind]) fun c => ?_
    · intro j0 p0 hj0 hp0 e0
      have w1 : (w.sub j0).dims = [nj1, n, k] := by simp [SV.sub, dw]
      have x1 : (x.sub p0).dims = np1 :: k :: cs := by simp [SV.sub, dx]
      refine Acc.congr (Acc.loopI nj1 np1 i1 (padOf ni1 np1 nj1) _
        (fun j1 p1 => spread ((r.sub i0).sub i1) fun ix =>
          sumTo k fun b => Wf [j0, j1, ix.headD 0, b] * Xf (p0 :: p1 :: b :: ix.tail)) ?_)
        (fun _ _ => rfl) (fun c => (spread_window _ _ _ _ _ _ c).symm)
      intro j1 p1 hj1 hp1 e1
      refine Acc.congr (hprod n k ((r.sub i0).sub i1) ((w.sub j0).sub j1) ((x.sub p0).sub p1) P m0
        (fun ix => Wf (j0 :: j1 :: ix)) (fun ix => Xf (p0 :: p1 :: ix))
        ((hr.sub i0).sub i1) ((hw.sub j0).sub j1) ((hx.sub p0).sub p1) d2 (by simp [SV.sub, dw]) (by simp [SV.sub, dx])
        (Holds_sub (hw.sub j0) w1 hj1 (Holds_sub hw dw hj0 vw)) (Holds_sub (hx.sub p0) x1 hp1 (Holds_sub hx dx hp0 vx))
        (In_sub (hw.sub j0) w1 hj1 (In_sub hw dw hj0 iw)) (In_sub (hx.sub p0) x1 hp1 (In_sub hx dx hp0 ix))
        (Has_sub (hr.sub i0) d1 hi1 (Has_sub hr dr hi0 ar)) (Out_sub (hr.sub i0) d1 hi1 (Out_sub hr dr hi0 or))) ?_
        (fun c => rfl)
      intro m _
      rw [w.slice_eq hw dw, Res.ok_bind, (w.sub j0).slice_eq (hw.sub j0) w1, Res.ok_bind, e0, x.slice_eq hx dx, Res.ok_bind, e1,
        (x.sub p0).slice_eq (hx.sub p0) x1, Res.ok_bind]
    · rw [spread_window]
      refine spread_congr _ (fun ix hix => ?_) c
      rw [d2] at hix
      match ix, hix.length with
      | a :: cx, _ => rfl
  · intro m _
    simp only [conv2d3, Res.get, dr, dw, dx, List.getElem?_cons_zero, List.getElem?_cons_succ, Res.ok_bind, decide_true,
      Res.assrt_true, List.length_cons, List.length_nil]

/-! ## Programs that overwrite -/

theorem wr_of {m : Buf α} {c : Int} (h : (m.cellAt c).isSome) (v : α) :
    wr m c v = .ok (fun b => if (b : Int) = c then some v else m b) := by
  have h0 : 0 ≤ c := by
    by_contra hn; simp [Buf.cellAt, hn] at h
  rw [Buf.cellAt, if_pos h0] at h
  obtain ⟨a, ha⟩ := Option.isSome_iff_exists.1 h
  simp only [wr, if_pos h0, Buf.write, ha]
  congr 1
  funext b
  by_cases hb : b = c.toNat
  · rw [if_pos hb, if_pos (by omega)]
  · rw [if_neg hb, if_neg (by omega)]

theorem forM_sets {ι : Type} {P : Nat → Prop} (l : List ι) (cell : ι → Int) (v : ι → α) (body : Buf α → ι → Res (Buf α))
    (m0 : Buf α) (hP : ∀ i ∈ l, ∀ c : Nat, cell i = c → ¬ P c) (ha : ∀ i ∈ l, (m0.cellAt (cell i)).isSome)
    (hi : ∀ i ∈ l, ∀ j ∈ l, cell i = cell j → v i = v j)
    (hb : ∀ i ∈ l, ∀ m, Keeps P m0 m → body m i = wr m (cell i) (v i)) (m : Buf α) (hm : Keeps P m0 m) :
    ∃ m', Res.forM l m body = .ok m' ∧ (∀ i ∈ l, m'.cellAt (cell i) = some (v i)) ∧
      ∀ c : Nat, (∀ i ∈ l, cell i ≠ c) → m' c = m c := by
  induction l generalizing m with
  | nil => exact ⟨m, rfl, by simp, fun _ _ => rfl⟩
  | cons i l ih =>
    have hs : (m.cellAt (cell i)).isSome := by
      have := ha i (by simp)
      unfold Buf.cellAt at this ⊢
      by_cases h0 : 0 ≤ cell i
      · rw [if_pos h0] at this ⊢; rw [hm.1]; exact this
      · rw [if_neg h0] at this; cases this
    have e1 : body m i = .ok (fun b => if (b : Int) = cell i then some (v i) else m b) := by
      rw [hb i (by simp) m hm, wr_of hs]
    have hm1 : Keeps P m0 (fun b => if (b : Int) = cell i then some (v i) else m b) := by
      refine ⟨fun c => ?_, fun c hc => ?_⟩ <;> dsimp only
      · by_cases e : (c : Int) = cell i
        · have : (m c).isSome := by
            have h := hs
            rw [Buf.cellAt, if_pos (by omega), show (cell i).toNat = c by omega] at h
            exact h
          rw [if_pos e, ← hm.1 c, this]; rfl
        · rw [if_neg e, hm.1 c]
      · rw [if_neg fun e => hP i (by simp) c e.symm hc, hm.2 c hc]
    obtain ⟨m', k1, k2, k3⟩ := ih (fun j hj => hP j (by simp [hj])) (fun j hj => ha j (by simp [hj]))
      (fun j hj k hk => hi j (by simp [hj]) k (by simp [hk])) (fun j hj => hb j (by simp [hj])) _ hm1
    refine ⟨m', by rw [Res.forM_cons, e1, Res.ok_bind, k1], ?_, ?_⟩
    · intro j hj
      by_cases hjl : ∃ a ∈ l, cell a = cell j
      · obtain ⟨a, ha1, ha2⟩ := hjl
        rw [← ha2, k2 a ha1, hi a (by simp [ha1]) j hj ha2]
      · have hji : j = i := by
          rcases List.mem_cons.1 hj with h | h
          · exact h
          · exact absurd ⟨j, h, rfl⟩ hjl
        subst hji
        have h0 : 0 ≤ cell j := by
          by_contra hn; simp [Buf.cellAt, hn] at hs
        rw [Buf.cellAt, if_pos h0, k3 _ fun a ha1 ha2 => hjl ⟨a, ha1, by omega⟩, if_pos (by omega)]
    · intro c hc
      rw [k3 c fun j hj => hc j (by simp [hj]), if_neg fun e => hc i (by simp) e.symm]

theorem res_bind_ok {β : Type} (x : Res β) : (x >>= fun a => .ok a) = x := by cases x <;> rfl

/-- Overwriting the entries of a view one after another. -/
theorem sets_view {P : Nat → Prop} {v : SV} (hi : v.Inj) {m0 : Buf α} (ha : v.Has m0) (ho : Out P v) (G : List Nat → α)
    (body : Buf α → List Nat → Res (Buf α))
    (hb : ∀ ix, InRange ix v.dims → ∀ m, Keeps P m0 m → body m ix = wr m (v.cell ix) (G ix)) :
    ∃ m', Res.forM (allIndices v.dims) m0 body = .ok m' ∧ v.Becomes G m0 m' := by
  obtain ⟨m', k1, k2, k3⟩ := forM_sets (P := P) (allIndices v.dims) v.cell G body m0 (fun ix hix => ho ix (mem_allIndices.1 hix))
    (fun ix hix => ha ix (mem_allIndices.1 hix))
    (fun ix hix jx hjx e => by rw [hi ix jx (mem_allIndices.1 hix) (mem_allIndices.1 hjx) e])
    (fun ix hix => hb ix (mem_allIndices.1 hix)) m0 (Keeps.refl P m0)
  exact ⟨m', k1, fun ix hix => k2 ix (mem_allIndices.2 hix), fun c hc => k3 c fun ix hix => hc ix (mem_allIndices.1 hix)⟩

/-- `Σ_{j,p : i+j-pad=p} X(p) W(j)`. -/
def plain1 [NonUnitalNonAssocSemiring α] (pad : Int) (nj np : Nat) (Wf Xf : List Nat → α) : List Nat → α
  | [i] => sumTo nj fun j => sumTo np fun p => if (i : Int) + j - pad = p then Xf [p] * Wf [j] else 0
  | _ => 0

theorem conv1d1_ok [NonUnitalNonAssocSemiring α] {r x w : SV} (hr : r.WF) (hx : x.WF) (hw : w.WF) {ni np nj : Nat}
    (dr : r.dims = [ni]) (dx : x.dims = [np]) (dw : w.dims = [nj]) {P : Nat → Prop} {m0 : Buf α} {Xf Wf : List Nat → α}
    (vx : x.Holds m0 Xf) (vw : w.Holds m0 Wf) (ix : In P x) (iw : In P w) (ar : r.Has m0) (or : Out P r) (hi : r.Inj) :
    ∃ m', conv1d1 r x w nj m0 = .ok m' ∧ r.Becomes (plain1 (padOf ni np nj) nj np Wf Xf) m0 m' := by
  obtain ⟨m', k1, k2⟩ := sets_view (P := P) hi ar or (plain1 (padOf ni np nj) nj np Wf Xf) (fun m ix => do
      let t ← loopI (max 0 (padOf ni np nj - ix.headD 0)) (min (nj : Int) (np - ix.headD 0 + padOf ni np nj)) (0 : α) fun j0 t => do
        let a ← x.at1 (ix.headD 0 + j0 - padOf ni np nj)
        let p ← rd m a
        let b ← w.at1 j0
        let q ← rd m b
        .ok (t + p * q)
      let c ← r.at1 (ix.headD 0)
      wr m c t) (by
    intro ix' hix m hm
    rw [dr] at hix
    match ix', hix.length with
    | [i], _ =>
      rw [List.headD_cons, loopI_sum nj np i (padOf ni np nj) 0 _ (fun j p => Xf [p] * Wf [j]), zero_add, Res.ok_bind,
        r.at1_eq hr dr, Res.ok_bind]
      · rfl
      · intro j p hj hp e t
        have h1 : InRange [p] x.dims := by rw [dx]; simp [InRange, hp]
        have h2 : InRange [j] w.dims := by rw [dw]; simp [InRange, hj]
        rw [e, x.at1_eq hx dx, Res.ok_bind, hm.rd (vx _ h1) (ix _ h1), Res.ok_bind, w.at1_eq hw dw, Res.ok_bind,
          hm.rd (vw _ h2) (iw _ h2), Res.ok_bind])
  refine ⟨m', ?_, k2⟩
  rw [← k1, dr]
  simp only [conv1d1, Res.get, dr, dw, dx, List.getElem?_cons_zero, Res.ok_bind, decide_true, Res.assrt_true,
    List.length_cons, List.length_nil, allIndices, forM_flatMap, forM_map, Res.forM_cons, Res.forM_nil, List.headD_cons, loop,
    res_bind_ok]

/-- `Σ_{j0,p0 : i0+j0-pad0=p0} Σ_{j1,p1 : i1+j1-pad1=p1} X(p0,p1) W(j0,j1)`. -/
def plain2 [NonUnitalNonAssocSemiring α] (pad0 pad1 : Int) (nj0 np0 nj1 np1 : Nat) (Wf Xf : List Nat → α) : List Nat → α
  | [i0, i1] => sumTo nj0 fun j0 => sumTo np0 fun p0 =>
      if (i0 : Int) + j0 - pad0 = p0 then
        sumTo nj1 fun j1 => sumTo np1 fun p1 => if (i1 : Int) + j1 - pad1 = p1 then Xf [p0, p1] * Wf [j0, j1] else 0
      else 0
  | _ => 0

theorem conv2d2_ok [NonUnitalNonAssocSemiring α] {r x w : SV} (hr : r.WF) (hx : x.WF) (hw : w.WF)
    {ni0 ni1 np0 np1 nj0 nj1 : Nat} (dr : r.dims = [ni0, ni1]) (dx : x.dims = [np0, np1]) (dw : w.dims = [nj0, nj1])
    {P : Nat → Prop} {m0 : Buf α} {Xf Wf : List Nat → α}
    (vx : x.Holds m0 Xf) (vw : w.Holds m0 Wf) (ix : In P x) (iw : In P w) (ar : r.Has m0) (or : Out P r) (hi : r.Inj) :
    ∃ m', conv2d2 r x w nj0 nj1 m0 = .ok m' ∧
      r.Becomes (plain2 (padOf ni0 np0 nj0) (padOf ni1 np1 nj1) nj0 np0 nj1 np1 Wf Xf) m0 m' := by
  obtain ⟨m', k1, k2⟩ := sets_view (P := P) hi ar or (plain2 (padOf ni0 np0 nj0) (padOf ni1 np1 nj1) nj0 np0 nj1 np1 Wf Xf)
    (fun m ix => do
      let t ← loopI (max 0 (padOf ni0 np0 nj0 - ix.headD 0)) (min (nj0 : Int) (np0 - ix.headD 0 + padOf ni0 np0 nj0)) (0 : α)
        fun j0 t => loopI (max 0 (padOf ni1 np1 nj1 - ix.tail.headD 0)) (min (nj1 : Int) (np1 - ix.tail.headD 0 + padOf ni1 np1 nj1)) t
          fun j1 t => do
            let a ← x.at2 (ix.headD 0 + j0 - padOf ni0 np0 nj0) (ix.tail.headD 0 + j1 - padOf ni1 np1 nj1)
            let p ← rd m a
            let b ← w.at2 j0 j1
            let q ← rd m b
            .ok (t + p * q)
      let c ← r.at2 (ix.headD 0) (ix.tail.headD 0)
      wr m c t) (by
    intro ix' hix m hm
    rw [dr] at hix
    match ix', hix.length with
    | [i0, i1], _ =>
      simp only [List.headD_cons, List.tail_cons]
      rw [loopI_sum nj0 np0 i0 (padOf ni0 np0 nj0) 0 _ (fun j0 p0 => sumTo nj1 fun j1 => sumTo np1 fun p1 =>
          if (i1 : Int) + j1 - padOf ni1 np1 nj1 = p1 then Xf [p0, p1] * Wf [j0, j1] else 0), zero_add, Res.ok_bind,
        r.at2_eq hr dr, Res.ok_bind]
      · rfl
      · intro j0 p0 hj0 hp0 e0 t
        rw [loopI_sum nj1 np1 i1 (padOf ni1 np1 nj1) t _ (fun j1 p1 => Xf [p0, p1] * Wf [j0, j1])]
        intro j1 p1 hj1 hp1 e1 t
        have h1 : InRange [p0, p1] x.dims := by rw [dx]; simp [InRange, hp0, hp1]
        have h2 : InRange [j0, j1] w.dims := by rw [dw]; simp [InRange, hj0, hj1]
        rw [e0, e1, x.at2_eq hx dx, Res.ok_bind, hm.rd (vx _ h1) (ix _ h1), Res.ok_bind, w.at2_eq hw dw, Res.ok_bind,
          hm.rd (vw _ h2) (iw _ h2), Res.ok_bind])
  refine ⟨m', ?_, k2⟩
  rw [← k1, dr]
  simp only [conv2d2, Res.get, dr, dw, dx, List.getElem?_cons_zero, List.getElem?_cons_succ, Res.ok_bind, decide_true,
    Res.assrt_true, List.length_cons, List.length_nil, allIndices, forM_flatMap, forM_map, Res.forM_cons, Res.forM_nil,
    List.headD_cons, List.tail_cons, List.map_cons, List.map_nil, loop, res_bind_ok]

/-! ## Hypotheses on the operands -/

/-- A convolution of `x` with the filter `w` into `r` is set up: one stride per axis; the entries of `x` and `w` are `Xf` and
`Wf`; the entries of `r` are allocated, different from each other and from those of `x` and `w`. -/
structure Ready (r x w : SV) (m : Buf α) (Xf Wf : List Nat → α) : Prop where
  rwf : r.WF
  xwf : x.WF
  wwf : w.WF
  has : r.Has m
  inj : r.Inj
  rx : r.Apart x
  rw : r.Apart w
  xval : x.Holds m Xf
  wval : w.Holds m Wf

/-- The cells of the operands. -/
def ofOps (x w : SV) (c : Nat) : Prop :=
  (∃ ix, InRange ix x.dims ∧ x.cell ix = c) ∨ ∃ ix, InRange ix w.dims ∧ w.cell ix = c

theorem Holds.nonneg {v : SV} {m : Buf α} {f : List Nat → α} (h : v.Holds m f) {ix : List Nat} (hix : InRange ix v.dims) :
    ((v.cell ix).toNat : Int) = v.cell ix := by
  have := h ix hix
  unfold SV.val Buf.cellAt at this
  by_cases h0 : 0 ≤ v.cell ix
  · omega
  · rw [if_neg h0] at this; cases this

section Ready
variable {r x w : SV} {m : Buf α} {Xf Wf : List Nat → α} (h : Ready r x w m Xf Wf)
include h

theorem Ready.inx : In (ofOps x w) x := fun ix hix => Or.inl ⟨ix, hix, (Holds.nonneg h.xval hix).symm⟩

theorem Ready.inw : In (ofOps x w) w := fun ix hix => Or.inr ⟨ix, hix, (Holds.nonneg h.wval hix).symm⟩

theorem Ready.out : Out (ofOps x w) r := by
  rintro ix hix c hc (⟨jx, hjx, e⟩ | ⟨jx, hjx, e⟩)
  · exact h.rx ix jx hix hjx (hc.trans e.symm)
  · exact h.rw ix jx hix hjx (hc.trans e.symm)

end Ready

/-- `pad` is half of `d`, rounded towards zero. -/
def HalfOf (d pad : Int) : Prop := d = 2 * pad ∨ (d = 2 * pad + 1 ∧ 0 ≤ pad) ∨ (d = 2 * pad - 1 ∧ pad ≤ 0)

theorem padOf_eq {a b c : Nat} {pad : Int} (h : HalfOf ((a : Int) - b + c - 1) pad) : padOf a b c = pad := by
  unfold padOf
  unfold HalfOf at h
  generalize (a : Int) - b + c - 1 = d at h
  by_cases hd : 0 ≤ d
  · rw [Int.tdiv_eq_ediv_of_nonneg hd]
    omega
  · obtain ⟨e, rfl⟩ : ∃ e, d = -e := ⟨-d, by omega⟩
    rw [Int.neg_tdiv, Int.tdiv_eq_ediv_of_nonneg (by omega)]
    omega

/-- Over the batches, in any order. -/
theorem spread_batches [AddCommMonoid α] (v : SV) (hv : v.WF) {n : Nat} {ds : List Nat} (h : v.dims = n :: ds)
    (G : List Nat → α) {ord : List Nat} (ho : ord.Perm (List.range n)) (c : Nat) :
    (ord.map fun (i : Nat) => spread (v.sub i) (fun ix => G (i :: ix)) c).sum = spread v G c := by
  rw [(ho.map _).sum_eq, spread_cons v hv h]

end Cnine
