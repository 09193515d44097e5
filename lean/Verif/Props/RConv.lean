import Verif.Lemmas.RConv

/-!
# C175–C182: convolutions of float views

The relation between an output position `i`, a filter position `j` and an input position `p` is again `i + j - pad = p`; the
filter has its output channel first.
-/

namespace Cnine
namespace RConv

open Conv

variable {α : Type}

/-- `Σ W(a,j0,j1,b) X(p0,p1,b,cx)` over `b`, `i0+j0-pad0 = p0` and `i1+j1-pad1 = p1`, at index `(i0,i1,a,cx)`. -/
def rfwd2 [NonUnitalNonAssocSemiring α] (pad0 pad1 : Int) (nj0 np0 nj1 np1 k : Nat) (Wf Xf : List Nat → α) : List Nat → α
  | i0 :: i1 :: a :: cx => sumTo nj0 fun j0 => sumTo np0 fun p0 =>
      if (i0 : Int) + j0 - pad0 = p0 then
        sumTo nj1 fun j1 => sumTo np1 fun p1 =>
          if (i1 : Int) + j1 - pad1 = p1 then sumTo k fun b => Wf [a, j0, j1, b] * Xf (p0 :: p1 :: b :: cx) else 0
      else 0
  | _ => 0

/-- The same with three axes. -/
def rfwd3 [NonUnitalNonAssocSemiring α] (pad0 pad1 pad2 : Int) (nj0 np0 nj1 np1 nj2 np2 k : Nat) (Wf Xf : List Nat → α) :
    List Nat → α
  | i0 :: i1 :: i2 :: a :: cx => sumTo nj0 fun j0 => sumTo np0 fun p0 =>
      if (i0 : Int) + j0 - pad0 = p0 then
        sumTo nj1 fun j1 => sumTo np1 fun p1 =>
          if (i1 : Int) + j1 - pad1 = p1 then
            sumTo nj2 fun j2 => sumTo np2 fun p2 =>
              if (i2 : Int) + j2 - pad2 = p2 then sumTo k fun b => Wf [a, j0, j1, j2, b] * Xf (p0 :: p1 :: p2 :: b :: cx)
              else 0
          else 0
      else 0
  | _ => 0

/-- Move the output channel of a filter index to its place in `fwd2` and back. -/
def rot2 : List Nat → List Nat
  | [j0, j1, a, b] => [a, j0, j1, b]
  | l => l

def rot3 : List Nat → List Nat
  | [j0, j1, j2, a, b] => [a, j0, j1, j2, b]
  | l => l

theorem rfwd2_eq [NonUnitalNonAssocSemiring α] (pad0 pad1 : Int) (nj0 np0 nj1 np1 k : Nat) (Wf Xf : List Nat → α)
    (ix : List Nat) : rfwd2 pad0 pad1 nj0 np0 nj1 np1 k Wf Xf ix =
      fwd2 pad0 pad1 nj0 np0 nj1 np1 k (fun jx => Wf (rot2 jx)) Xf ix := by
  match ix with
  | [] => rfl
  | [_] => rfl
  | [_, _] => rfl
  | _ :: _ :: _ :: _ => rfl

theorem rfwd3_eq [NonUnitalNonAssocSemiring α] (pad0 pad1 pad2 : Int) (nj0 np0 nj1 np1 nj2 np2 k : Nat) (Wf Xf : List Nat → α)
    (ix : List Nat) : rfwd3 pad0 pad1 pad2 nj0 np0 nj1 np1 nj2 np2 k Wf Xf ix =
      fwd3 pad0 pad1 pad2 nj0 np0 nj1 np1 nj2 np2 k (fun jx => Wf (rot3 jx)) Xf ix := by
  match ix with
  | [] => rfl
  | [_] => rfl
  | [_, _] => rfl
  | [_, _, _] => rfl
  | _ :: _ :: _ :: _ :: _ => rfl

theorem rot2_through (o : Int) (n nj0 nj1 k : Nat) (s0 s1 s2 s3 : Int) :
    Through ⟨o, [nj0, nj1, n, k], [s1, s2, s0, s3]⟩ ⟨o, [n, nj0, nj1, k], [s0, s1, s2, s3]⟩ rot2 := by
  intro ix hix
  match ix, hix with
  | [j0, j1, a, b], hix =>
    simp only [InRange, List.forall₂_cons] at hix
    refine ⟨by simp [InRange, rot2]; omega, ?_⟩
    simp only [SV.cell, sdot, rot2]
    ring

theorem rot3_through (o : Int) (n nj0 nj1 nj2 k : Nat) (s0 s1 s2 s3 s4 : Int) :
    Through ⟨o, [nj0, nj1, nj2, n, k], [s1, s2, s3, s0, s4]⟩ ⟨o, [n, nj0, nj1, nj2, k], [s0, s1, s2, s3, s4]⟩ rot3 := by
  intro ix hix
  match ix, hix with
  | [j0, j1, j2, a, b], hix =>
    simp only [InRange, List.forall₂_cons] at hix
    refine ⟨by simp [InRange, rot3]; omega, ?_⟩
    simp only [SV.cell, sdot, rot3]
    ring

/-- An axis of size `nj` with stride `s` joined to the axis of size `k` with stride `s'` that follows it. -/
theorem joined {nj k t : Nat} {s s' : Int} (hs : nj ≤ 1 ∨ s = k * s') (ht : t < nj * k) :
    s' * (t : Int) = s * ((t / k : Nat) : Int) + s' * ((t % k : Nat) : Int) := by
  rcases hs with h | rfl
  · have hk : t < k := by
      rcases Nat.le_one_iff_eq_zero_or_eq_one.1 h with rfl | rfl
      · simp at ht
      · simpa using ht
    rw [Nat.div_eq_of_lt hk, Nat.mod_eq_of_lt hk]
    simp
  · have := Nat.div_add_mod t k
    have e : (t : Int) = (k : Int) * ((t / k : Nat) : Int) + ((t % k : Nat) : Int) := by exact_mod_cast this.symm
    rw [show s' * (t : Int) = s' * ((k : Int) * ((t / k : Nat) : Int) + ((t % k : Nat) : Int)) from congrArg _ e]
    ring

theorem joined_lt {nj k t : Nat} (ht : t < nj * k) : t / k < nj ∧ t % k < k := by
  have hk : 0 < k := by
    rcases Nat.eq_zero_or_pos k with rfl | h
    · simp at ht
    · exact h
  exact ⟨(Nat.div_lt_iff_lt_mul hk).2 ht, Nat.mod_lt _ hk⟩

/-! ## Two axes -/

section two
variable [NonUnitalNonAssocSemiring α] {prod : SV → SV → SV → Buf α → Res (Buf α)} {cs : List Nat} (hprod : IsProd prod cs)
  {ro xo wo : Int} {rs0 rs1 xs0 xs1 : Int} {rss xss : List Int} {ws0 ws1 ws2 ws3 xs2 : Int}
  {ni0 ni1 np0 np1 nj0 nj1 n k : Nat} {m : Buf α} {Xf Wf : List Nat → α} {P : Nat → Prop}

/-- What both the three- and the four-axis versions do, the product being `prod`. -/
def prog2 (prod : SV → SV → SV → Buf α → Res (Buf α)) (cs : List Nat) (ro xo wo : Int) (rs0 rs1 : Int) (rss : List Int)
    (xs0 xs1 : Int) (xs2 : Int) (xss : List Int) (ws0 ws1 ws2 ws3 : Int) (ni0 ni1 np0 np1 nj0 nj1 n k : Nat) (p0 p1 : Int)
    (m : Buf α) : Res (Buf α) :=
  loop ni0 m fun i0 m => loop ni1 m fun i1 m =>
    loopI (max 0 (p0 - i0)) (min nj0 (np0 - i0 + p0)) m fun j0 m =>
      if p1 = 0 then
        prod ⟨ro + rs0 * i0 + rs1 * i1, n :: cs, rss⟩ ⟨wo + ws1 * j0, [n, nj1 * k], [ws0, ws3]⟩
          ⟨xo + xs0 * (i0 + j0 - p0) + xs1 * i1, (nj1 * k) :: cs, xs2 :: xss⟩ m
      else
        loopI (max 0 (p1 - i1)) (min nj1 (np1 - i1 + p1)) m fun j1 m =>
          prod ⟨ro + rs0 * i0 + rs1 * i1, n :: cs, rss⟩ ⟨wo + ws1 * j0 + ws2 * j1, [n, k], [ws0, ws3]⟩
            ⟨xo + xs0 * (i0 + j0 - p0) + xs1 * (i1 + j1 - p1), k :: cs, xs2 :: xss⟩ m

include hprod in
theorem prog2_acc (hrs : rss.length = cs.length + 1) (hxs : xss.length = cs.length) (p0 p1 : Int)
    (vx : (⟨xo, np0 :: np1 :: k :: cs, xs0 :: xs1 :: xs2 :: xss⟩ : SV).Holds m Xf)
    (vw : (⟨wo, [n, nj0, nj1, k], [ws0, ws1, ws2, ws3]⟩ : SV).Holds m Wf)
    (ix : In P ⟨xo, np0 :: np1 :: k :: cs, xs0 :: xs1 :: xs2 :: xss⟩)
    (iw : In P ⟨wo, [n, nj0, nj1, k], [ws0, ws1, ws2, ws3]⟩)
    (ar : (⟨ro, ni0 :: ni1 :: n :: cs, rs0 :: rs1 :: rss⟩ : SV).Has m) (or : Out P ⟨ro, ni0 :: ni1 :: n :: cs, rs0 :: rs1 :: rss⟩)
    (hfit : p1 ≠ 0 ∨ ((nj1 ≤ 1 ∨ (ws2 = k * ws3 ∧ xs1 = k * xs2)) ∧ ni1 + nj1 ≤ np1 + 1)) :
    Acc P m (prog2 prod cs ro xo wo rs0 rs1 rss xs0 xs1 xs2 xss ws0 ws1 ws2 ws3 ni0 ni1 np0 np1 nj0 nj1 n k p0 p1)
      (spread ⟨ro, ni0 :: ni1 :: n :: cs, rs0 :: rs1 :: rss⟩ (rfwd2 p0 p1 nj0 np0 nj1 np1 k Wf Xf)) := by
  have hr : (⟨ro, ni0 :: ni1 :: n :: cs, rs0 :: rs1 :: rss⟩ : SV).WF := by simp [SV.WF, hrs]
  have ht := rot2_through wo n nj0 nj1 k ws0 ws1 ws2 ws3
  by_cases hp : p1 = 0
  · subst hp
    obtain ⟨hc, hf⟩ := hfit.resolve_left (fun h => h rfl)
    refine acc_same (acc_prog (acc2f hprod hr ar or (Xf := Xf) (Wf := fun jx => Wf (rot2 jx)) p0
      (fun j0 => ⟨wo + ws1 * j0, [n, nj1 * k], [ws0, ws3]⟩)
      (fun q0 i1 => ⟨xo + xs0 * q0 + xs1 * i1, (nj1 * k) :: cs, xs2 :: xss⟩) (k := k) (nj1 := nj1) (np1 := np1) rfl ?_ ?_ hf)
      (fun m => ?_)) (fun jx _ => rfwd2_eq _ _ _ _ _ _ _ _ _ jx)
    · intro j0 hj0
      have hth : Through ⟨wo + ws1 * j0, [n, nj1 * k], [ws0, ws3]⟩ ⟨wo, [n, nj0, nj1, k], [ws0, ws1, ws2, ws3]⟩
          (fun jx => [jx.headD 0, j0, jx.getD 1 0 / k, jx.getD 1 0 % k]) := by
        intro jx hjx
        match jx, hjx with
        | [a, t], hjx =>
          simp only [InRange, List.forall₂_cons] at hjx
          obtain ⟨h1, h2⟩ := joined_lt hjx.2.1
          refine ⟨by simp [InRange]; exact ⟨hjx.1, hj0, h1, h2⟩, ?_⟩
          have := joined (hc.imp id And.left) hjx.2.1
          simp only [SV.cell, sdot, List.headD_cons, List.getD_cons_succ, List.getD_cons_zero]
          rw [this]; ring
      exact ⟨rfl, rfl, hth.holds vw, through_in hth iw⟩
    · intro q0 i1 hq hi1
      have hth : Through ⟨xo + xs0 * q0 + xs1 * i1, (nj1 * k) :: cs, xs2 :: xss⟩
          ⟨xo, np0 :: np1 :: k :: cs, xs0 :: xs1 :: xs2 :: xss⟩
          (fun jx => q0 :: (i1 + jx.headD 0 / k) :: (jx.headD 0 % k) :: jx.tail) := by
        intro jx hjx
        match jx, hjx with
        | t :: cx, hjx =>
          obtain ⟨ht, hcx⟩ := inRange_cons.1 hjx
          obtain ⟨h1, h2⟩ := joined_lt ht
          refine ⟨inRange_cons.2 ⟨hq, inRange_cons.2 ⟨?_, inRange_cons.2 ⟨h2, hcx⟩⟩⟩, ?_⟩
          · simp only [List.headD_cons]; omega
          have := joined (hc.imp id And.right) ht
          simp only [SV.cell, sdot, List.headD_cons, List.tail_cons]
          push_cast at this ⊢
          rw [this]; ring
      exact ⟨by simp [SV.WF, hxs], rfl, hth.holds vx, through_in hth ix⟩
    · simp only [prog2, if_true]
      rfl
  · refine acc_same (acc_prog (acc2 hprod hr ar or (x := ⟨xo, np0 :: np1 :: k :: cs, xs0 :: xs1 :: xs2 :: xss⟩)
      (w := ⟨wo, [nj0, nj1, n, k], [ws1, ws2, ws0, ws3]⟩) (by simp [SV.WF, hxs]) rfl p0 p1 rfl rfl rfl vx
      (ht.holds vw) ix (through_in ht iw)) (fun m => ?_)) (fun jx _ => rfwd2_eq _ _ _ _ _ _ _ _ _ jx)
    simp only [prog2, if_neg hp]
    rfl

end two

section three
variable [NonUnitalNonAssocSemiring α] {prod : SV → SV → SV → Buf α → Res (Buf α)} {cs : List Nat} (hprod : IsProd prod cs)
  {ro xo wo : Int} {rs0 rs1 rs2 xs0 xs1 xs2 xs3 : Int} {rss xss : List Int} {ws0 ws1 ws2 ws3 ws4 : Int}
  {ni0 ni1 ni2 np0 np1 np2 nj0 nj1 nj2 lim n k : Nat} {m : Buf α} {Xf Wf : List Nat → α} {P : Nat → Prop}

/-- What both the four- and the five-axis versions do, the product being `prod` and the third filter index running below `lim`. -/
def prog3 (prod : SV → SV → SV → Buf α → Res (Buf α)) (join : Bool) (lim : Nat) (cs : List Nat) (ro xo wo : Int)
    (rs0 rs1 rs2 : Int) (rss : List Int) (xs0 xs1 xs2 xs3 : Int) (xss : List Int) (ws0 ws1 ws2 ws3 ws4 : Int)
    (ni0 ni1 ni2 np0 np1 np2 nj0 nj1 nj2 n k : Nat) (p0 p1 p2 : Int) (m : Buf α) : Res (Buf α) :=
  loop ni0 m fun i0 m => loop ni1 m fun i1 m => loop ni2 m fun i2 m =>
    loopI (max 0 (p0 - i0)) (min nj0 (np0 - i0 + p0)) m fun j0 m =>
      loopI (max 0 (p1 - i1)) (min nj1 (np1 - i1 + p1)) m fun j1 m =>
        if join ∧ p2 = 0 then
          prod ⟨ro + rs0 * i0 + rs1 * i1 + rs2 * i2, n :: cs, rss⟩ ⟨wo + ws1 * j0 + ws2 * j1, [n, nj2 * k], [ws0, ws4]⟩
            ⟨xo + xs0 * (i0 + j0 - p0) + xs1 * (i1 + j1 - p1) + xs2 * i2, (nj2 * k) :: cs, xs3 :: xss⟩ m
        else
          loopI (max 0 (p2 - i2)) (min lim (np2 - i2 + p2)) m fun j2 m =>
            prod ⟨ro + rs0 * i0 + rs1 * i1 + rs2 * i2, n :: cs, rss⟩ ⟨wo + ws1 * j0 + ws2 * j1 + ws3 * j2, [n, k], [ws0, ws4]⟩
              ⟨xo + xs0 * (i0 + j0 - p0) + xs1 * (i1 + j1 - p1) + xs2 * (i2 + j2 - p2), k :: cs, xs3 :: xss⟩ m

include hprod in
theorem prog3_acc (hrs : rss.length = cs.length + 1) (hxs : xss.length = cs.length) (join : Bool) (p0 p1 p2 : Int)
    (vx : (⟨xo, np0 :: np1 :: np2 :: k :: cs, xs0 :: xs1 :: xs2 :: xs3 :: xss⟩ : SV).Holds m Xf)
    (vw : (⟨wo, [n, nj0, nj1, nj2, k], [ws0, ws1, ws2, ws3, ws4]⟩ : SV).Holds m Wf)
    (ix : In P ⟨xo, np0 :: np1 :: np2 :: k :: cs, xs0 :: xs1 :: xs2 :: xs3 :: xss⟩)
    (iw : In P ⟨wo, [n, nj0, nj1, nj2, k], [ws0, ws1, ws2, ws3, ws4]⟩)
    (ar : (⟨ro, ni0 :: ni1 :: ni2 :: n :: cs, rs0 :: rs1 :: rs2 :: rss⟩ : SV).Has m)
    (or : Out P ⟨ro, ni0 :: ni1 :: ni2 :: n :: cs, rs0 :: rs1 :: rs2 :: rss⟩) (d : Nat)
    (hfit : (¬ (join ∧ p2 = 0) ∧ lim ≤ nj2 ∧ d = lim) ∨
      ((join ∧ p2 = 0) ∧ d = nj2 ∧ (nj2 ≤ 1 ∨ (ws3 = k * ws4 ∧ xs2 = k * xs3)) ∧ ni2 + nj2 ≤ np2 + 1)) :
    Acc P m (prog3 prod join lim cs ro xo wo rs0 rs1 rs2 rss xs0 xs1 xs2 xs3 xss ws0 ws1 ws2 ws3 ws4 ni0 ni1 ni2 np0 np1 np2
        nj0 nj1 nj2 n k p0 p1 p2)
      (spread ⟨ro, ni0 :: ni1 :: ni2 :: n :: cs, rs0 :: rs1 :: rs2 :: rss⟩
        (rfwd3 p0 p1 p2 nj0 np0 nj1 np1 d np2 k Wf Xf)) := by
  have hr : (⟨ro, ni0 :: ni1 :: ni2 :: n :: cs, rs0 :: rs1 :: rs2 :: rss⟩ : SV).WF := by simp [SV.WF, hrs]
  have ht := rot3_through wo n nj0 nj1 nj2 k ws0 ws1 ws2 ws3 ws4
  rcases hfit with ⟨hp, hl, rfl⟩ | ⟨⟨hjoin, rfl⟩, rfl, hc, hf⟩
  · refine acc_same (acc_prog (acc3 hprod hr ar or (x := ⟨xo, np0 :: np1 :: np2 :: k :: cs, xs0 :: xs1 :: xs2 :: xs3 :: xss⟩)
      (w := ⟨wo, [nj0, nj1, nj2, n, k], [ws1, ws2, ws3, ws0, ws4]⟩) (by simp [SV.WF, hxs]) rfl p0 p1 p2 rfl rfl rfl hl vx
      (ht.holds vw) ix (through_in ht iw)) (fun m => ?_)) (fun jx _ => rfwd3_eq _ _ _ _ _ _ _ _ _ _ _ _ jx)
    simp only [prog3, if_neg hp]
    rfl
  · refine acc_same (acc_prog (acc3f hprod hr ar or (Xf := Xf) (Wf := fun jx => Wf (rot3 jx)) p0 p1
      (fun j0 j1 => ⟨wo + ws1 * j0 + ws2 * j1, [n, d * k], [ws0, ws4]⟩)
      (fun q0 q1 i2 => ⟨xo + xs0 * q0 + xs1 * q1 + xs2 * i2, (d * k) :: cs, xs3 :: xss⟩) (k := k) (nj2 := d) (np2 := np2)
      rfl ?_ ?_ hf) (fun m => ?_)) (fun jx _ => rfwd3_eq _ _ _ _ _ _ _ _ _ _ _ _ jx)
    · intro j0 j1 hj0 hj1
      have hth : Through ⟨wo + ws1 * j0 + ws2 * j1, [n, d * k], [ws0, ws4]⟩
          ⟨wo, [n, nj0, nj1, d, k], [ws0, ws1, ws2, ws3, ws4]⟩
          (fun jx => [jx.headD 0, j0, j1, jx.getD 1 0 / k, jx.getD 1 0 % k]) := by
        intro jx hjx
        match jx, hjx with
        | [a, t], hjx =>
          simp only [InRange, List.forall₂_cons] at hjx
          obtain ⟨h1, h2⟩ := joined_lt hjx.2.1
          refine ⟨by simp [InRange]; exact ⟨hjx.1, hj0, hj1, h1, h2⟩, ?_⟩
          have := joined (hc.imp id And.left) hjx.2.1
          simp only [SV.cell, sdot, List.headD_cons, List.getD_cons_succ, List.getD_cons_zero]
          rw [this]; ring
      exact ⟨rfl, rfl, hth.holds vw, through_in hth iw⟩
    · intro q0 q1 i2 hq0 hq1 hi2
      have hth : Through ⟨xo + xs0 * q0 + xs1 * q1 + xs2 * i2, (d * k) :: cs, xs3 :: xss⟩
          ⟨xo, np0 :: np1 :: np2 :: k :: cs, xs0 :: xs1 :: xs2 :: xs3 :: xss⟩
          (fun jx => q0 :: q1 :: (i2 + jx.headD 0 / k) :: (jx.headD 0 % k) :: jx.tail) := by
        intro jx hjx
        match jx, hjx with
        | t :: cx, hjx =>
          obtain ⟨ht, hcx⟩ := inRange_cons.1 hjx
          obtain ⟨h1, h2⟩ := joined_lt ht
          refine ⟨inRange_cons.2 ⟨hq0, inRange_cons.2 ⟨hq1, inRange_cons.2 ⟨?_, inRange_cons.2 ⟨h2, hcx⟩⟩⟩⟩, ?_⟩
          · simp only [List.headD_cons]; omega
          have := joined (hc.imp id And.right) ht
          simp only [SV.cell, sdot, List.headD_cons, List.tail_cons]
          push_cast at this ⊢
          rw [this]; ring
      exact ⟨by simp [SV.WF, hxs], rfl, hth.holds vx, through_in hth ix⟩
    · simp only [prog3, hjoin, and_self, if_true]
      rfl

end three

/-! ## C175: two axes and a channel -/

theorem conv2a_acc [NonUnitalNonAssocSemiring α] {r x w : SV} {m : Buf α} {Xf Wf : List Nat → α} {P : Nat → Prop}
    (hr : r.WF) (vx : x.Holds m Xf) (vw : w.Holds m Wf) (ix : In P x) (iw : In P w) (ar : r.Has m) (or : Out P r)
    {ni0 ni1 np0 np1 nj0 nj1 n k : Nat} {xs0 xs1 xs2 ws0 ws1 ws2 ws3 : Int}
    (dr : r.dims = [ni0, ni1, n]) (dx : x.dims = [np0, np1, k]) (dw : w.dims = [n, nj0, nj1, k])
    (sx : x.strides = [xs0, xs1, xs2]) (sw : w.strides = [ws0, ws1, ws2, ws3]) {pad0 pad1 : Int}
    (hpad0 : HalfOf ((ni0 : Int) - np0 + nj0 - 1) pad0) (hpad1 : HalfOf ((ni1 : Int) - np1 + nj1 - 1) pad1)
    (hfit : pad1 ≠ 0 ∨ ((nj1 ≤ 1 ∨ (ws2 = k * ws3 ∧ xs1 = k * xs2)) ∧ ni1 + nj1 ≤ np1 + 1)) :
    Acc P m (conv2a r x w) (spread r (rfwd2 pad0 pad1 nj0 np0 nj1 np1 k Wf Xf)) := by
  obtain ⟨ro, rd, rs⟩ := r
  obtain ⟨xo, xd, xs⟩ := x
  obtain ⟨wo, wd, ws⟩ := w
  simp only at dr dx dw sx sw
  subst dr dx dw sx sw
  match rs, hr with
  | [rs0, rs1, rs2], _ =>
    refine acc_prog (prog2_acc mprodTo_isProd rfl rfl pad0 pad1 vx vw ix iw ar or hfit) fun m => ?_
    simp only [conv2a, decide_true, Res.assrt_true, Res.ok_bind, padOf_eq hpad0, padOf_eq hpad1]
    rfl

/-- `RtensorConvolve2d()(r,x,w)` with three-axis `r`, `x`: `r(i0,i1,a)` gains `Σ w(a,j0,j1,b) x(p0,p1,b)`; any strides when the
padding along the second axis is not zero; otherwise the channels must follow each other in `w` and in `x` and the filter must not
reach over the end. -/
theorem C175_gains [NonUnitalNonAssocSemiring α] {r x w : SV} {m : Buf α} {Xf Wf : List Nat → α} (h : Ready r x w m Xf Wf)
    {ni0 ni1 np0 np1 nj0 nj1 n k : Nat} {xs0 xs1 xs2 ws0 ws1 ws2 ws3 : Int}
    (dr : r.dims = [ni0, ni1, n]) (dx : x.dims = [np0, np1, k]) (dw : w.dims = [n, nj0, nj1, k])
    (sx : x.strides = [xs0, xs1, xs2]) (sw : w.strides = [ws0, ws1, ws2, ws3]) {pad0 pad1 : Int}
    (hpad0 : HalfOf ((ni0 : Int) - np0 + nj0 - 1) pad0) (hpad1 : HalfOf ((ni1 : Int) - np1 + nj1 - 1) pad1)
    (hfit : pad1 ≠ 0 ∨ ((nj1 ≤ 1 ∨ (ws2 = k * ws3 ∧ xs1 = k * xs2)) ∧ ni1 + nj1 ≤ np1 + 1)) :
    ∃ m', conv2a r x w m = .ok m' ∧ r.Gains (rfwd2 pad0 pad1 nj0 np0 nj1 np1 k Wf Xf) m m' :=
  (conv2a_acc h.rwf h.xval h.wval h.inx h.inw h.has h.out dr dx dw sx sw hpad0 hpad1 hfit).gains h.inj

/-- Row-major strides, as those of every `RtensorA`. -/
def Packed (v : SV) : Prop := v.strides = (rmStrides v.dims).map Int.ofNat

theorem sizeOf_eq {n : Int} {k : Nat} (h : (k : Int) = n) : Conv.sizeOf n = .ok k := by
  subst h
  simp [Conv.sizeOf]

/-- `convolve2D(x,w,padding0,padding1)` of a three-axis `x`: the result is new and holds the sums. -/
theorem C175_convolve2D [NonUnitalNonAssocSemiring α] {x w : SV} {m : Buf α} {Xf Wf : List Nat → α}
    {q ni0 ni1 np0 np1 nj0 nj1 n k : Nat} {pad0 pad1 : Int} (h : Inputs x w m Xf Wf q (asize [ni0, ni1, n]))
    (dx : x.dims = [np0, np1, k]) (dw : w.dims = [n, nj0, nj1, k]) (cx : Packed x) (cw : Packed w)
    (h0 : (ni0 : Int) = np0 + 2 * pad0 - nj0 + 1) (h1 : (ni1 : Int) = np1 + 2 * pad1 - nj1 + 1) :
    Made1 (convolve2D x w pad0 pad1 q m) m q [ni0, ni1, n] (rfwd2 pad0 pad1 nj0 np0 nj1 np1 k Wf Xf) := by
  have sx : x.strides = [((np1 * k : Nat) : Int), (k : Int), 1] := by
    rw [cx, dx]; simp [rmStrides_cons]
  have sw : w.strides = [((nj0 * (nj1 * k) : Nat) : Int), ((nj1 * k : Nat) : Int), (k : Int), 1] := by
    rw [cw, dw]; simp [rmStrides_cons]
  obtain ⟨m', k1, k2⟩ := C175_gains h.ready rfl dx dw sx sw (pad0 := pad0) (pad1 := pad1) (Or.inl (by omega)) (Or.inl (by omega)) (by
    by_cases hp : pad1 = 0
    · exact Or.inr ⟨Or.inr ⟨by ring, by ring⟩, by omega⟩
    · exact Or.inl hp)
  obtain ⟨k3, k4⟩ := made_gains k2
  refine ⟨m', ?_, k3, k4⟩
  simp only [convolve2D, dx, dw, decide_true, Res.assrt_true, Res.ok_bind, sizeOf_eq h0, sizeOf_eq h1, make, k1]

/-! ## C176: other layouts -/

/-- Read off from the memory afterwards that an entry has not gained what it should. -/
theorem not_gains {v : SV} {p : Res (Buf Int)} {m : Buf Int} {G : List Nat → Int} (n : Nat) (l : List (Option Int)) (ix : List Nat)
    (a b : Int) (c : Nat) (hix : ix ∈ allIndices v.dims) (hc : v.cell ix = c) (hcn : c < n) (ha : m c = some a)
    (hl : after n p = some l) (hb : l[c]? = some (some b)) (hne : b ≠ a + G ix) : ¬ ∃ m', p = .ok m' ∧ v.Gains G m m' := by
  rintro ⟨m', rfl, h, _⟩
  have e : ∀ m : Buf Int, v.val m ix = m c := fun m => by rw [SV.val, hc, Buf.cellAt, if_pos (by omega), Int.toNat_natCast]
  have h1 := h ix (mem_allIndices.1 hix) a ((e m).trans ha)
  rw [e m'] at h1
  simp only [after, Option.some.injEq] at hl
  subst hl
  simp only [List.getElem?_map, List.getElem?_range hcn, Option.map_some, Option.some.injEq] at hb
  rw [hb] at h1
  exact hne (Option.some.inj h1)

/-- Without padding along the second axis a filter or input whose channels do not follow each other is read in the wrong places. -/
theorem C176_layout_fails : ∃ (r x w : SV) (m : Buf Int) (Xf Wf : List Nat → Int),
    Ready r x w m Xf Wf ∧ r.dims = [1, 1, 1] ∧ x.dims = [1, 2, 2] ∧ w.dims = [1, 1, 2, 2] ∧
      ¬ ∃ m', conv2a r x w m = .ok m' ∧ r.Gains (rfwd2 0 0 1 1 2 2 2 Wf Xf) m m' :=
  ⟨⟨0, [1, 1, 1], [1, 1, 1]⟩, ⟨1, [1, 2, 2], [4, 1, 2]⟩, ⟨5, [1, 1, 2, 2], [4, 4, 2, 1]⟩, memOf [0, 1, 2, 3, 4, 1, 10, 100, 1000],
    entries ⟨1, [1, 2, 2], [4, 1, 2]⟩ (memOf [0, 1, 2, 3, 4, 1, 10, 100, 1000]),
    entries ⟨5, [1, 1, 2, 2], [4, 4, 2, 1]⟩ (memOf [0, 1, 2, 3, 4, 1, 10, 100, 1000]),
    ready_of rfl rfl rfl (by decide) (by decide) (by decide) (by decide) (by decide) (by decide), rfl, rfl, rfl,
    not_gains 1 [some 100131] [0, 0, 0] 0 100131 0 (by decide) rfl (by decide) rfl (by decide) rfl (by decide)⟩

/-- A result one longer than the unpadded one: the filter is applied past the end of `x`. -/
theorem C176_overrun_fails : ∃ (r x w : SV) (m : Buf Int) (Xf Wf : List Nat → Int),
    Ready r x w m Xf Wf ∧ r.dims = [1, 2, 1] ∧ x.dims = [1, 2, 1] ∧ w.dims = [1, 1, 2, 1] ∧ Packed r ∧ Packed x ∧ Packed w ∧
      HalfOf ((2 : Nat) - (2 : Nat) + (2 : Nat) - 1) 0 ∧
      ¬ ∃ m', conv2a r x w m = .ok m' ∧ r.Gains (rfwd2 0 0 1 1 2 2 1 Wf Xf) m m' :=
  ⟨⟨0, [1, 2, 1], [2, 1, 1]⟩, ⟨2, [1, 2, 1], [2, 1, 1]⟩, ⟨4, [1, 1, 2, 1], [2, 2, 1, 1]⟩, memOf [0, 0, 1, 2, 3, 5],
    entries ⟨2, [1, 2, 1], [2, 1, 1]⟩ (memOf [0, 0, 1, 2, 3, 5]),
    entries ⟨4, [1, 1, 2, 1], [2, 2, 1, 1]⟩ (memOf [0, 0, 1, 2, 3, 5]),
    ready_of rfl rfl rfl (by decide) (by decide) (by decide) (by decide) (by decide) (by decide), rfl, rfl, rfl, rfl, rfl, rfl,
    Or.inr (Or.inl (by decide)),
    not_gains 2 [some 13, some 21] [0, 1, 0] 0 21 1 (by decide) rfl (by decide) rfl (by decide) rfl (by decide)⟩

/-- With a padding of one along the second axis every layout is right. -/
theorem C176_padded_partial [NonUnitalNonAssocSemiring α] {r x w : SV} {m : Buf α} {Xf Wf : List Nat → α}
    (h : Ready r x w m Xf Wf) {ni0 ni1 np0 np1 nj0 nj1 n k : Nat}
    (dr : r.dims = [ni0, ni1, n]) (dx : x.dims = [np0, np1, k]) (dw : w.dims = [n, nj0, nj1, k]) {pad0 pad1 : Int}
    (hpad0 : HalfOf ((ni0 : Int) - np0 + nj0 - 1) pad0) (hpad1 : HalfOf ((ni1 : Int) - np1 + nj1 - 1) pad1) (hne : pad1 ≠ 0) :
    ∃ m', conv2a r x w m = .ok m' ∧ r.Gains (rfwd2 pad0 pad1 nj0 np0 nj1 np1 k Wf Xf) m m' := by
  have hx := h.xwf
  have hw := h.wwf
  unfold SV.WF at hx hw
  rw [dx] at hx
  rw [dw] at hw
  match sx : x.strides, hx, sw : w.strides, hw with
  | [_, _, _], _, [_, _, _, _], _ => exact C175_gains h dr dx dw sx sw hpad0 hpad1 (Or.inl hne)

/-! ## C177: two axes, a channel and more axes -/

/-- `R.add_mprod(W,X)` does something. -/
def Multiplies (R W X : SV) : Prop :=
  regular R ∧ ((regular W ∧ regular X) ∨ (regular W ∧ transposed X) ∨ (transposed W ∧ regular X))

instance (R W X : SV) : Decidable (Multiplies R W X) := by unfold Multiplies; infer_instance

theorem loop_ok {n : Nat} {m : Buf α} {body : Nat → Buf α → Res (Buf α)} (h : ∀ i, body i m = .ok m) : loop n m body = .ok m := by
  unfold loop
  induction List.range n with
  | nil => rfl
  | cons i l ih => rw [Res.forM_cons, h, Res.ok_bind, ih]

theorem loopI_ok {lo hi : Int} {m : Buf α} {body : Int → Buf α → Res (Buf α)} (h : ∀ i, body i m = .ok m) :
    loopI lo hi m body = .ok m := by
  unfold loopI
  exact loop_ok fun i => h _

theorem mprod_not [Zero α] [Add α] [Mul α] {R W X : SV} (h : ¬ regular W) (h' : ¬ transposed W) (m : Buf α) : mprod R W X m = .ok m := by
  unfold mprod
  rw [if_neg]
  rintro ⟨_, ⟨h1, _⟩ | ⟨h1, _⟩ | ⟨h1, _⟩⟩
  · exact h h1
  · exact h h1
  · exact h' h1

theorem conv2ac_idle [Zero α] [Add α] [Mul α] {r x w : SV} {ni0 ni1 np0 np1 nj0 nj1 n k c : Nat} {ws0 ws1 ws2 ws3 : Int}
    (hr : r.WF) (hx : x.WF)
    (dr : r.dims = [ni0, ni1, n, c]) (dx : x.dims = [np0, np1, k, c]) (dw : w.dims = [n, nj0, nj1, k])
    (sw : w.strides = [ws0, ws1, ws2, ws3]) {pad1 : Int} (hpad1 : HalfOf ((ni1 : Int) - np1 + nj1 - 1) pad1)
    (h : ∀ o : Int, if pad1 = 0 then ¬ regular ⟨o, [n, nj1 * k], [ws0, ws3]⟩ ∧ ¬ transposed ⟨o, [n, nj1 * k], [ws0, ws3]⟩
      else ¬ regular ⟨o, [n, k], [ws0, ws3]⟩ ∧ ¬ transposed ⟨o, [n, k], [ws0, ws3]⟩) (m : Buf α) :
    conv2ac r x w m = .ok m := by
  obtain ⟨ro, rd, rs⟩ := r
  obtain ⟨xo, xd, xs⟩ := x
  obtain ⟨wo, wd, ws⟩ := w
  simp only at dr dx dw sw
  subst dr dx dw sw
  match rs, hr, xs, hx with
  | [_, _, _, _], _, [_, _, _, _], _ =>
    simp only [conv2ac, decide_true, Res.assrt_true, Res.ok_bind, padOf_eq hpad1]
    refine loop_ok fun i0 => loop_ok fun i1 => loopI_ok fun j0 => ?_
    by_cases hp : pad1 = 0
    · simp only [if_pos hp] at h ⊢
      exact mprod_not (h _).1 (h _).2 m
    · simp only [if_neg hp] at h ⊢
      exact loopI_ok fun j1 => mprod_not (h _).1 (h _).2 m

theorem wide_not {o : Int} {n d s : Nat} (h : 1 < s) (hd : s ≠ d) :
    ¬ regular ⟨o, [n, d], [(s : Int), 1]⟩ ∧ ¬ transposed ⟨o, [n, d], [(s : Int), 1]⟩ := by
  refine ⟨?_, ?_⟩
  · rintro ⟨_, e, h1, h2⟩
    simp only [List.getElem?_cons_succ, List.getElem?_cons_zero, Option.some.injEq] at h1 h2
    omega
  · rintro ⟨h1, _⟩
    simp only [List.getElem?_cons_zero, Option.some.injEq] at h1
    omega

/-- The filter is wider than one position: then the products are never computed. -/
def Wide (nj0 nj1 : Nat) (pad1 : Int) : Prop := 1 < nj0 ∨ (pad1 ≠ 0 ∧ 1 < nj1)

theorem packed_idle {w : SV} {n nj0 nj1 k : Nat} (dw : w.dims = [n, nj0, nj1, k]) (cw : Packed w)
    {pad1 : Int} (hw : Wide nj0 nj1 pad1) (h0 : 0 < nj0) (h1 : 0 < nj1) (hk : 0 < k) :
    w.strides = [((nj0 * (nj1 * k) : Nat) : Int), ((nj1 * k : Nat) : Int), (k : Int), 1] ∧
    ∀ o : Int, if pad1 = 0 then ¬ regular ⟨o, [n, nj1 * k], [((nj0 * (nj1 * k) : Nat) : Int), 1]⟩ ∧
        ¬ transposed ⟨o, [n, nj1 * k], [((nj0 * (nj1 * k) : Nat) : Int), 1]⟩
      else ¬ regular ⟨o, [n, k], [((nj0 * (nj1 * k) : Nat) : Int), 1]⟩ ∧
        ¬ transposed ⟨o, [n, k], [((nj0 * (nj1 * k) : Nat) : Int), 1]⟩ := by
  refine ⟨by rw [cw, dw]; simp [rmStrides_cons], fun o => ?_⟩
  have hd : 0 < nj1 * k := Nat.mul_pos h1 hk
  by_cases hp : pad1 = 0
  · have h2 : 1 < nj0 := by
      rcases hw with h | ⟨h, _⟩
      · exact h
      · exact absurd hp h
    rw [if_pos hp]
    have : 2 * (nj1 * k) ≤ nj0 * (nj1 * k) := Nat.mul_le_mul_right _ h2
    exact wide_not (by omega) (by omega)
  · rw [if_neg hp]
    have : 2 * k ≤ nj0 * (nj1 * k) := by
      rcases hw with h | ⟨_, h⟩
      · calc 2 * k ≤ nj0 * k := Nat.mul_le_mul_right _ h
          _ ≤ nj0 * (nj1 * k) := Nat.mul_le_mul_left _ (Nat.le_mul_of_pos_left k h1)
      · calc 2 * k ≤ nj1 * k := Nat.mul_le_mul_right _ h
          _ ≤ nj0 * (nj1 * k) := Nat.le_mul_of_pos_left _ h0
    exact wide_not (by omega) (by omega)

/-- `convolve2D` of a four-axis `x` with a filter of more than one position: the result is zero, whatever `x` and `w` hold. -/
theorem C177_zero_fails [NonUnitalNonAssocSemiring α] {x w : SV} {m : Buf α} {q ni0 ni1 np0 np1 nj0 nj1 n k c : Nat}
    {pad0 pad1 : Int} (hx : x.WF) (dx : x.dims = [np0, np1, k, c]) (dw : w.dims = [n, nj0, nj1, k]) (cw : Packed w)
    (hw : Wide nj0 nj1 pad1) (h0 : 0 < nj0) (h1 : 0 < nj1) (hk : 0 < k)
    (e0 : (ni0 : Int) = np0 + 2 * pad0 - nj0 + 1) (e1 : (ni1 : Int) = np1 + 2 * pad1 - nj1 + 1) :
    convolve2D x w pad0 pad1 q m = .ok (some (fresh q [ni0, ni1, n, c]), allocZero m q (asize [ni0, ni1, n, c])) := by
  obtain ⟨sw, hi⟩ := packed_idle dw cw hw h0 h1 hk (n := n)
  have := conv2ac_idle (α := α) (fresh_wf q [ni0, ni1, n, c]) hx rfl dx dw sw (pad1 := pad1) (Or.inl (by omega)) hi
    (allocZero m q (asize [ni0, ni1, n, c]))
  simp only [convolve2D, dx, dw, decide_true, Res.assrt_true, Res.ok_bind, sizeOf_eq e0, sizeOf_eq e1, make, this]

/-- With batches likewise. -/
theorem C177_batches_fails [NonUnitalNonAssocSemiring α] {x w : SV} {m : Buf α} {q nb ni0 ni1 np0 np1 nj0 nj1 n k c : Nat}
    {pad0 pad1 : Int} (hx : x.WF) (dx : x.dims = [nb, np0, np1, k, c]) (dw : w.dims = [n, nj0, nj1, k]) (cw : Packed w)
    (hw : Wide nj0 nj1 pad1) (h0 : 0 < nj0) (h1 : 0 < nj1) (hk : 0 < k)
    (e0 : (ni0 : Int) = np0 + 2 * pad0 - nj0 + 1) (e1 : (ni1 : Int) = np1 + 2 * pad1 - nj1 + 1) :
    convolve2D x w pad0 pad1 q m =
      .ok (some (fresh q [nb, ni0, ni1, n, c]), allocZero m q (asize [nb, ni0, ni1, n, c])) := by
  obtain ⟨sw, hi⟩ := packed_idle dw cw hw h0 h1 hk (n := n)
  have hr := fresh_wf q [nb, ni0, ni1, n, c]
  have : conv2b (fresh q [nb, ni0, ni1, n, c]) x w (allocZero m q (asize [nb, ni0, ni1, n, c])) =
      .ok (allocZero m q (asize [nb, ni0, ni1, n, c])) := by
    have df : (fresh q [nb, ni0, ni1, n, c]).dims = [nb, ni0, ni1, n, c] := rfl
    simp only [conv2b, batches, dx, dw, df, List.getElem?_cons_zero, List.getElem?_cons_succ, decide_true, Res.assrt_true,
      Res.ok_bind, Res.get]
    refine loop_ok fun b => ?_
    rw [SV.slice_eq _ hr rfl, Res.ok_bind, x.slice_eq hx dx, Res.ok_bind]
    exact conv2ac_idle (np0 := np0) (np1 := np1) (hr.sub b) (hx.sub b) rfl (by simp [SV.sub, dx]) dw sw (pad1 := pad1) (Or.inl (by omega)) hi _
  simp only [convolve2D, dx, dw, decide_true, Res.assrt_true, Res.ok_bind, sizeOf_eq e0, sizeOf_eq e1, make, this]

theorem slice2_of {o : Int} {a b c d e : Nat} {s0 s1 s2 s3 s4 : Int} (i : Int) :
    SV.slice ⟨o, [a, b, c, d, e], [s0, s1, s2, s3, s4]⟩ 2 i = .ok ⟨o + s2 * i, [a, b, d, e], [s0, s1, s3, s4]⟩ := by
  simp [SV.slice, Res.get, gvRemove]

/-- With batches and blocks likewise. -/
theorem C177_blocks_fails [NonUnitalNonAssocSemiring α] {x w : SV} {m : Buf α} {q nb ni0 ni1 np0 np1 nj0 nj1 n k c d : Nat}
    {pad0 pad1 : Int} (hx : x.WF) (dx : x.dims = [nb, np0, np1, d, k, c]) (dw : w.dims = [n, nj0, nj1, k]) (cw : Packed w)
    (hw : Wide nj0 nj1 pad1) (h0 : 0 < nj0) (h1 : 0 < nj1) (hk : 0 < k)
    (e0 : (ni0 : Int) = np0 + 2 * pad0 - nj0 + 1) (e1 : (ni1 : Int) = np1 + 2 * pad1 - nj1 + 1) :
    convolve2D x w pad0 pad1 q m =
      .ok (some (fresh q [nb, ni0, ni1, d, n, c]), allocZero m q (asize [nb, ni0, ni1, d, n, c])) := by
  obtain ⟨sw, hi⟩ := packed_idle dw cw hw h0 h1 hk (n := n)
  have hr := fresh_wf q [nb, ni0, ni1, d, n, c]
  obtain ⟨xo, xd, xs⟩ := x
  simp only at dx
  subst dx
  match xs, hx with
  | [xs0, xs1, xs2, xs3, xs4, xs5], hx =>
  have : conv2bd (fresh q [nb, ni0, ni1, d, n, c]) ⟨xo, [nb, np0, np1, d, k, c], [xs0, xs1, xs2, xs3, xs4, xs5]⟩ w
      (allocZero m q (asize [nb, ni0, ni1, d, n, c])) = .ok (allocZero m q (asize [nb, ni0, ni1, d, n, c])) := by
    have df : (fresh q [nb, ni0, ni1, d, n, c]).dims = [nb, ni0, ni1, d, n, c] := rfl
    simp only [conv2bd, blocks, dw, df, List.getElem?_cons_zero, List.getElem?_cons_succ, decide_true, Res.assrt_true,
      Res.ok_bind, Res.get]
    refine loop_ok fun b => loop_ok fun e => ?_
    rw [SV.slice_eq _ hr rfl, Res.ok_bind, SV.slice_eq _ hx rfl]
    have hs : (fresh q [nb, ni0, ni1, d, n, c]).sub (b : Int) = ⟨(q : Int) + _, [ni0, ni1, d, n, c], [_, _, _, _, _]⟩ := rfl
    rw [hs, slice2_of, Res.ok_bind, Res.ok_bind]
    simp only [SV.sub, List.tail_cons]
    rw [slice2_of, Res.ok_bind]
    refine conv2ac_idle (ni0 := ni0) (ni1 := ni1) (np0 := np0) (np1 := np1) (c := c) ?_ ?_ rfl rfl dw sw (pad1 := pad1)
      (Or.inl (by omega)) hi _
    · rfl
    · rfl
  simp only [convolve2D, dw, decide_true, Res.assrt_true, Res.ok_bind, sizeOf_eq e0, sizeOf_eq e1, make, this]

/-- Where the layout admits the product, the four-axis version is right. -/
theorem conv2ac_acc [NonUnitalNonAssocSemiring α] {r x w : SV} {m : Buf α} {Xf Wf : List Nat → α} {P : Nat → Prop}
    (vx : x.Holds m Xf) (vw : w.Holds m Wf) (ix : In P x) (iw : In P w) (ar : r.Has m) (or : Out P r)
    {ni0 ni1 np0 np1 nj0 nj1 n k c : Nat} {rs0 rs1 rs2 rs3 xs0 xs1 xs2 xs3 ws0 ws1 ws2 ws3 : Int}
    (dr : r.dims = [ni0, ni1, n, c]) (dx : x.dims = [np0, np1, k, c]) (dw : w.dims = [n, nj0, nj1, k])
    (sr : r.strides = [rs0, rs1, rs2, rs3]) (sx : x.strides = [xs0, xs1, xs2, xs3]) (sw : w.strides = [ws0, ws1, ws2, ws3])
    {pad0 pad1 : Int} (hpad0 : HalfOf ((ni0 : Int) - np0 + nj0 - 1) pad0) (hpad1 : HalfOf ((ni1 : Int) - np1 + nj1 - 1) pad1)
    (hfit : (pad1 ≠ 0 ∧ Multiplies ⟨0, [n, c], [rs2, rs3]⟩ ⟨0, [n, k], [ws0, ws3]⟩ ⟨0, [k, c], [xs2, xs3]⟩) ∨
      (Multiplies ⟨0, [n, c], [rs2, rs3]⟩ ⟨0, [n, nj1 * k], [ws0, ws3]⟩ ⟨0, [nj1 * k, c], [xs2, xs3]⟩ ∧ pad1 = 0 ∧
        (nj1 ≤ 1 ∨ (ws2 = k * ws3 ∧ xs1 = k * xs2)) ∧ ni1 + nj1 ≤ np1 + 1)) :
    Acc P m (conv2ac r x w) (spread r (rfwd2 pad0 pad1 nj0 np0 nj1 np1 k Wf Xf)) := by
  obtain ⟨ro, rd, rs⟩ := r
  obtain ⟨xo, xd, xs⟩ := x
  obtain ⟨wo, wd, ws⟩ := w
  simp only at dr dx dw sr sx sw
  subst dr dx dw sr sx sw
  have key : ∀ m : Buf α, conv2ac ⟨ro, [ni0, ni1, n, c], [rs0, rs1, rs2, rs3]⟩ ⟨xo, [np0, np1, k, c], [xs0, xs1, xs2, xs3]⟩
      ⟨wo, [n, nj0, nj1, k], [ws0, ws1, ws2, ws3]⟩ m = prog2 SV.addMprod [c] ro xo wo rs0 rs1 [rs2, rs3] xs0 xs1 xs2 [xs3]
        ws0 ws1 ws2 ws3 ni0 ni1 np0 np1 nj0 nj1 n k pad0 pad1 m := by
    intro m
    simp only [conv2ac, decide_true, Res.assrt_true, Res.ok_bind, padOf_eq hpad0, padOf_eq hpad1, prog2]
    rcases hfit with ⟨hp, hm⟩ | ⟨hm, hp, _⟩
    · simp only [if_neg hp]
      have e : ∀ (a b d : Int) (m : Buf α), mprod ⟨a, [n, c], [rs2, rs3]⟩ ⟨b, [n, k], [ws0, ws3]⟩ ⟨d, [k, c], [xs2, xs3]⟩ m =
          SV.addMprod ⟨a, [n, c], [rs2, rs3]⟩ ⟨b, [n, k], [ws0, ws3]⟩ ⟨d, [k, c], [xs2, xs3]⟩ m := by
        intro a b d m
        unfold mprod
        exact if_pos hm
      simp only [e]
    · simp only [if_pos hp]
      have e : ∀ (a b d : Int) (m : Buf α), mprod ⟨a, [n, c], [rs2, rs3]⟩ ⟨b, [n, nj1 * k], [ws0, ws3]⟩
          ⟨d, [nj1 * k, c], [xs2, xs3]⟩ m =
          SV.addMprod ⟨a, [n, c], [rs2, rs3]⟩ ⟨b, [n, nj1 * k], [ws0, ws3]⟩ ⟨d, [nj1 * k, c], [xs2, xs3]⟩ m := by
        intro a b d m
        unfold mprod
        exact if_pos hm
      simp only [e]
  refine acc_prog (prog2_acc (mprod_isProd c) rfl rfl pad0 pad1 vx vw ix iw ar or (hfit.imp And.left fun h => ⟨h.2.2.1, h.2.2.2⟩)) key

/-- What is true: when result, filter and input slices have the layouts `add_mprod` knows, the sums are added. -/
theorem C177_channels_partial [NonUnitalNonAssocSemiring α] {r x w : SV} {m : Buf α} {Xf Wf : List Nat → α}
    (h : Ready r x w m Xf Wf)
    {ni0 ni1 np0 np1 nj0 nj1 n k c : Nat} {rs0 rs1 rs2 rs3 xs0 xs1 xs2 xs3 ws0 ws1 ws2 ws3 : Int}
    (dr : r.dims = [ni0, ni1, n, c]) (dx : x.dims = [np0, np1, k, c]) (dw : w.dims = [n, nj0, nj1, k])
    (sr : r.strides = [rs0, rs1, rs2, rs3]) (sx : x.strides = [xs0, xs1, xs2, xs3]) (sw : w.strides = [ws0, ws1, ws2, ws3])
    {pad0 pad1 : Int} (hpad0 : HalfOf ((ni0 : Int) - np0 + nj0 - 1) pad0) (hpad1 : HalfOf ((ni1 : Int) - np1 + nj1 - 1) pad1)
    (hfit : (pad1 ≠ 0 ∧ Multiplies ⟨0, [n, c], [rs2, rs3]⟩ ⟨0, [n, k], [ws0, ws3]⟩ ⟨0, [k, c], [xs2, xs3]⟩) ∨
      (Multiplies ⟨0, [n, c], [rs2, rs3]⟩ ⟨0, [n, nj1 * k], [ws0, ws3]⟩ ⟨0, [nj1 * k, c], [xs2, xs3]⟩ ∧ pad1 = 0 ∧
        (nj1 ≤ 1 ∨ (ws2 = k * ws3 ∧ xs1 = k * xs2)) ∧ ni1 + nj1 ≤ np1 + 1)) :
    ∃ m', conv2ac r x w m = .ok m' ∧ r.Gains (rfwd2 pad0 pad1 nj0 np0 nj1 np1 k Wf Xf) m m' :=
  (conv2ac_acc h.xval h.wval h.inx h.inw h.has h.out dr dx dw sr sx sw hpad0 hpad1 hfit).gains h.inj

/-! ## C178: three axes and a channel -/

theorem conv3a_acc [NonUnitalNonAssocSemiring α] {r x w : SV} {m : Buf α} {Xf Wf : List Nat → α} {P : Nat → Prop}
    (hr : r.WF) (vx : x.Holds m Xf) (vw : w.Holds m Wf) (ix : In P x) (iw : In P w) (ar : r.Has m) (or : Out P r)
    {ni0 ni1 ni2 np0 np1 np2 nj0 nj1 nj2 n k d : Nat} {xs0 xs1 xs2 xs3 ws0 ws1 ws2 ws3 ws4 : Int}
    (dr : r.dims = [ni0, ni1, ni2, n]) (dx : x.dims = [np0, np1, np2, k]) (dw : w.dims = [n, nj0, nj1, nj2, k])
    (sx : x.strides = [xs0, xs1, xs2, xs3]) (sw : w.strides = [ws0, ws1, ws2, ws3, ws4]) {pad0 pad1 pad2 : Int}
    (hpad0 : HalfOf ((ni0 : Int) - np0 + nj0 - 1) pad0) (hpad1 : HalfOf ((ni1 : Int) - np1 + nj1 - 1) pad1)
    (hpad2 : HalfOf ((ni2 : Int) - np2 + nj2 - 1) pad2)
    (hfit : (pad2 ≠ 0 ∧ nj1 ≤ nj2 ∧ d = nj1) ∨
      (pad2 = 0 ∧ d = nj2 ∧ (nj2 ≤ 1 ∨ (ws3 = k * ws4 ∧ xs2 = k * xs3)) ∧ ni2 + nj2 ≤ np2 + 1)) :
    Acc P m (conv3a r x w) (spread r (rfwd3 pad0 pad1 pad2 nj0 np0 nj1 np1 d np2 k Wf Xf)) := by
  obtain ⟨ro, rd, rs⟩ := r
  obtain ⟨xo, xd, xs⟩ := x
  obtain ⟨wo, wd, ws⟩ := w
  simp only at dr dx dw sx sw
  subst dr dx dw sx sw
  match rs, hr with
  | [rs0, rs1, rs2, rs3], _ =>
    refine acc_prog (prog3_acc mprodTo_isProd (lim := nj1) rfl rfl true pad0 pad1 pad2 vx vw ix iw ar or d (by simpa using hfit))
      fun m => ?_
    simp only [conv3a, decide_true, Res.assrt_true, Res.ok_bind, padOf_eq hpad0, padOf_eq hpad1, padOf_eq hpad2, prog3, true_and]

/-- `RtensorConvolve3d()(r,x,w)` with four-axis `r`, `x`, when the filter is as long along its second as along its third axis, or
there is no padding along the third axis and the channels follow each other. -/
theorem C178_gains [NonUnitalNonAssocSemiring α] {r x w : SV} {m : Buf α} {Xf Wf : List Nat → α} (h : Ready r x w m Xf Wf)
    {ni0 ni1 ni2 np0 np1 np2 nj0 nj1 nj2 n k : Nat} {xs0 xs1 xs2 xs3 ws0 ws1 ws2 ws3 ws4 : Int}
    (dr : r.dims = [ni0, ni1, ni2, n]) (dx : x.dims = [np0, np1, np2, k]) (dw : w.dims = [n, nj0, nj1, nj2, k])
    (sx : x.strides = [xs0, xs1, xs2, xs3]) (sw : w.strides = [ws0, ws1, ws2, ws3, ws4]) {pad0 pad1 pad2 : Int}
    (hpad0 : HalfOf ((ni0 : Int) - np0 + nj0 - 1) pad0) (hpad1 : HalfOf ((ni1 : Int) - np1 + nj1 - 1) pad1)
    (hpad2 : HalfOf ((ni2 : Int) - np2 + nj2 - 1) pad2)
    (hfit : (pad2 ≠ 0 ∧ nj1 = nj2) ∨
      (pad2 = 0 ∧ (nj2 ≤ 1 ∨ (ws3 = k * ws4 ∧ xs2 = k * xs3)) ∧ ni2 + nj2 ≤ np2 + 1)) :
    ∃ m', conv3a r x w m = .ok m' ∧ r.Gains (rfwd3 pad0 pad1 pad2 nj0 np0 nj1 np1 nj2 np2 k Wf Xf) m m' :=
  (conv3a_acc h.rwf h.xval h.wval h.inx h.inw h.has h.out dr dx dw sx sw hpad0 hpad1 hpad2
    (hfit.imp (fun h => ⟨h.1, h.2.le, h.2.symm⟩) fun h => ⟨h.1, rfl, h.2⟩)).gains h.inj

/-- `convolve3D(x,w,padding0,padding1,padding2)` of a four-axis `x`. -/
theorem C178_convolve3D [NonUnitalNonAssocSemiring α] {x w : SV} {m : Buf α} {Xf Wf : List Nat → α}
    {q ni0 ni1 ni2 np0 np1 np2 nj0 nj1 nj2 n k : Nat} {pad0 pad1 pad2 : Int}
    (h : Inputs x w m Xf Wf q (asize [ni0, ni1, ni2, n]))
    (dx : x.dims = [np0, np1, np2, k]) (dw : w.dims = [n, nj0, nj1, nj2, k]) (cx : Packed x) (cw : Packed w)
    (h0 : (ni0 : Int) = np0 + 2 * pad0 - nj0 + 1) (h1 : (ni1 : Int) = np1 + 2 * pad1 - nj1 + 1)
    (h2 : (ni2 : Int) = np2 + 2 * pad2 - nj2 + 1) (hsq : pad2 = 0 ∨ nj1 = nj2) :
    Made1 (convolve3D x w pad0 pad1 pad2 q m) m q [ni0, ni1, ni2, n]
      (rfwd3 pad0 pad1 pad2 nj0 np0 nj1 np1 nj2 np2 k Wf Xf) := by
  have sx : x.strides = [((np1 * (np2 * k) : Nat) : Int), ((np2 * k : Nat) : Int), (k : Int), 1] := by
    rw [cx, dx]; simp [rmStrides_cons]
  have sw : w.strides = [((nj0 * (nj1 * (nj2 * k)) : Nat) : Int), ((nj1 * (nj2 * k) : Nat) : Int), ((nj2 * k : Nat) : Int), (k : Int), 1] := by
    rw [cw, dw]; simp [rmStrides_cons]
  obtain ⟨m', k1, k2⟩ := C178_gains h.ready rfl dx dw sx sw (pad0 := pad0) (pad1 := pad1) (pad2 := pad2) (Or.inl (by omega))
    (Or.inl (by omega)) (Or.inl (by omega)) (by
      by_cases hp : pad2 = 0
      · exact Or.inr ⟨hp, Or.inr ⟨by ring, by ring⟩, by omega⟩
      · exact Or.inl ⟨hp, hsq.resolve_left hp⟩)
  obtain ⟨k3, k4⟩ := made_gains k2
  refine ⟨m', ?_, k3, k4⟩
  simp only [convolve3D, dx, dw, decide_true, Res.assrt_true, Res.ok_bind, sizeOf_eq h0, sizeOf_eq h1, sizeOf_eq h2, make, k1]

/-! ## C179: filters of unequal second and third axes -/

/-- A filter of sizes 1, 1, 3 applied with padding 1 along its third axis: nothing is added. -/
theorem C179_short_fails : ∃ (r x w : SV) (m : Buf Int) (Xf Wf : List Nat → Int),
    Ready r x w m Xf Wf ∧ r.dims = [1, 1, 1, 1] ∧ x.dims = [1, 1, 1, 1] ∧ w.dims = [1, 1, 1, 3, 1] ∧ Packed r ∧ Packed x ∧
      Packed w ∧ (3 : Int) - 1 = 2 * 1 ∧
      ¬ ∃ m', conv3a r x w m = .ok m' ∧ r.Gains (rfwd3 0 0 1 1 1 1 1 3 1 1 Wf Xf) m m' :=
  ⟨⟨0, [1, 1, 1, 1], [1, 1, 1, 1]⟩, ⟨1, [1, 1, 1, 1], [1, 1, 1, 1]⟩, ⟨2, [1, 1, 1, 3, 1], [3, 3, 3, 1, 1]⟩,
    memOf [0, 7, 2, 3, 5],
    entries ⟨1, [1, 1, 1, 1], [1, 1, 1, 1]⟩ (memOf [0, 7, 2, 3, 5]),
    entries ⟨2, [1, 1, 1, 3, 1], [3, 3, 3, 1, 1]⟩ (memOf [0, 7, 2, 3, 5]),
    ready_of rfl rfl rfl (by decide) (by decide) (by decide) (by decide) (by decide) (by decide), rfl, rfl, rfl, rfl, rfl, rfl,
    by decide,
    not_gains 1 [some 0] [0, 0, 0, 0] 0 0 0 (by decide) rfl (by decide) rfl (by decide) rfl (by decide)⟩

/-- A filter of sizes 1, 3, 1: cells outside the filter are read. -/
theorem C179_long_fails : ∃ (r x w : SV) (m : Buf Int) (Xf Wf : List Nat → Int),
    Ready r x w m Xf Wf ∧ r.dims = [1, 1, 3, 1] ∧ x.dims = [1, 3, 1, 1] ∧ w.dims = [1, 1, 3, 1, 1] ∧ Packed r ∧ Packed x ∧
      Packed w ∧ (3 : Int) - 1 + 1 - 1 = 2 * 1 ∧
      ¬ ∃ m', conv3a r x w m = .ok m' ∧ r.Gains (rfwd3 0 0 1 1 1 3 3 1 1 1 Wf Xf) m m' :=
  ⟨⟨0, [1, 1, 3, 1], [3, 3, 1, 1]⟩, ⟨3, [1, 3, 1, 1], [3, 1, 1, 1]⟩, ⟨6, [1, 1, 3, 1, 1], [3, 3, 1, 1, 1]⟩,
    memOf [0, 0, 0, 1, 2, 3, 5, 7, 11, 13],
    entries ⟨3, [1, 3, 1, 1], [3, 1, 1, 1]⟩ (memOf [0, 0, 0, 1, 2, 3, 5, 7, 11, 13]),
    entries ⟨6, [1, 1, 3, 1, 1], [3, 3, 1, 1, 1]⟩ (memOf [0, 0, 0, 1, 2, 3, 5, 7, 11, 13]),
    ready_of rfl rfl rfl (by decide) (by decide) (by decide) (by decide) (by decide) (by decide), rfl, rfl, rfl, rfl, rfl, rfl,
    by decide,
    not_gains 3 [some 68, some 52, some 0] [0, 0, 0, 0] 0 68 0 (by decide) rfl (by decide) rfl (by decide) rfl (by decide)⟩

/-- What is computed when the second axis is the shorter one: the filter positions beyond its length are left out. -/
theorem C179_short_partial [NonUnitalNonAssocSemiring α] {r x w : SV} {m : Buf α} {Xf Wf : List Nat → α} (h : Ready r x w m Xf Wf)
    {ni0 ni1 ni2 np0 np1 np2 nj0 nj1 nj2 n k : Nat}
    (dr : r.dims = [ni0, ni1, ni2, n]) (dx : x.dims = [np0, np1, np2, k]) (dw : w.dims = [n, nj0, nj1, nj2, k])
    {pad0 pad1 pad2 : Int}
    (hpad0 : HalfOf ((ni0 : Int) - np0 + nj0 - 1) pad0) (hpad1 : HalfOf ((ni1 : Int) - np1 + nj1 - 1) pad1)
    (hpad2 : HalfOf ((ni2 : Int) - np2 + nj2 - 1) pad2) (hne : pad2 ≠ 0) (hle : nj1 ≤ nj2) :
    ∃ m', conv3a r x w m = .ok m' ∧ r.Gains (rfwd3 pad0 pad1 pad2 nj0 np0 nj1 np1 nj1 np2 k Wf Xf) m m' := by
  have hx := h.xwf
  have hw := h.wwf
  unfold SV.WF at hx hw
  rw [dx] at hx
  rw [dw] at hw
  match sx : x.strides, hx, sw : w.strides, hw with
  | [_, _, _, _], _, [_, _, _, _, _], _ =>
    exact (conv3a_acc h.rwf h.xval h.wval h.inx h.inw h.has h.out dr dx dw sx sw hpad0 hpad1 hpad2
      (Or.inl ⟨hne, hle, rfl⟩)).gains h.inj

/-! ## C180: three axes, a channel and another axis -/

theorem conv3ac_idle [Zero α] [Add α] [Mul α] {r x w : SV} {ni0 ni1 ni2 np0 np1 np2 nj0 nj1 nj2 n k c : Nat}
    {ws0 ws1 ws2 ws3 ws4 : Int} (hr : r.WF) (hx : x.WF)
    (dr : r.dims = [ni0, ni1, ni2, n, c]) (dx : x.dims = [np0, np1, np2, k, c]) (dw : w.dims = [n, nj0, nj1, nj2, k])
    (sw : w.strides = [ws0, ws1, ws2, ws3, ws4])
    (h : ∀ o : Int, ¬ regular ⟨o, [n, k], [ws0, ws4]⟩ ∧ ¬ transposed ⟨o, [n, k], [ws0, ws4]⟩) (m : Buf α) :
    conv3ac r x w m = .ok m := by
  obtain ⟨ro, rd, rs⟩ := r
  obtain ⟨xo, xd, xs⟩ := x
  obtain ⟨wo, wd, ws⟩ := w
  simp only at dr dx dw sw
  subst dr dx dw sw
  match rs, hr, xs, hx with
  | [_, _, _, _, _], _, [_, _, _, _, _], _ =>
    simp only [conv3ac, decide_true, Res.assrt_true, Res.ok_bind]
    exact loop_ok fun i0 => loop_ok fun i1 => loop_ok fun i2 => loopI_ok fun j0 => loopI_ok fun j1 => loopI_ok fun j2 =>
      mprod_not (h _).1 (h _).2 m

theorem packed_idle3 {w : SV} {n nj0 nj1 nj2 k : Nat} (dw : w.dims = [n, nj0, nj1, nj2, k]) (cw : Packed w)
    (hw : 1 < nj0 * nj1 * nj2) (hk : 0 < k) :
    w.strides = [((nj0 * (nj1 * (nj2 * k)) : Nat) : Int), ((nj1 * (nj2 * k) : Nat) : Int), ((nj2 * k : Nat) : Int), (k : Int), 1] ∧
    ∀ o : Int, ¬ regular ⟨o, [n, k], [((nj0 * (nj1 * (nj2 * k)) : Nat) : Int), 1]⟩ ∧
        ¬ transposed ⟨o, [n, k], [((nj0 * (nj1 * (nj2 * k)) : Nat) : Int), 1]⟩ := by
  refine ⟨by rw [cw, dw]; simp [rmStrides_cons], fun o => ?_⟩
  have e : nj0 * (nj1 * (nj2 * k)) = nj0 * nj1 * nj2 * k := by ring
  have : 2 * k ≤ nj0 * nj1 * nj2 * k := Nat.mul_le_mul_right _ hw
  rw [e]
  exact wide_not (by omega) (by omega)

/-- `convolve3D` of a five-axis `x` with a filter of more than one position: the result is zero, whatever `x` and `w` hold. -/
theorem C180_zero_fails [NonUnitalNonAssocSemiring α] {x w : SV} {m : Buf α}
    {q ni0 ni1 ni2 np0 np1 np2 nj0 nj1 nj2 n k c : Nat}
    {pad0 pad1 pad2 : Int} (hx : x.WF) (dx : x.dims = [np0, np1, np2, k, c]) (dw : w.dims = [n, nj0, nj1, nj2, k]) (cw : Packed w)
    (hw : 1 < nj0 * nj1 * nj2) (hk : 0 < k)
    (e0 : (ni0 : Int) = np0 + 2 * pad0 - nj0 + 1) (e1 : (ni1 : Int) = np1 + 2 * pad1 - nj1 + 1)
    (e2 : (ni2 : Int) = np2 + 2 * pad2 - nj2 + 1) :
    convolve3D x w pad0 pad1 pad2 q m =
      .ok (some (fresh q [ni0, ni1, ni2, n, c]), allocZero m q (asize [ni0, ni1, ni2, n, c])) := by
  obtain ⟨sw, hi⟩ := packed_idle3 dw cw hw hk (n := n)
  have := conv3ac_idle (α := α) (fresh_wf q [ni0, ni1, ni2, n, c]) hx rfl dx dw sw hi
    (allocZero m q (asize [ni0, ni1, ni2, n, c]))
  simp only [convolve3D, dx, dw, decide_true, Res.assrt_true, Res.ok_bind, sizeOf_eq e0, sizeOf_eq e1, sizeOf_eq e2, make, this]

/-- With batches likewise. -/
theorem C180_batches_fails [NonUnitalNonAssocSemiring α] {x w : SV} {m : Buf α}
    {q nb ni0 ni1 ni2 np0 np1 np2 nj0 nj1 nj2 n k c : Nat}
    {pad0 pad1 pad2 : Int} (hx : x.WF) (dx : x.dims = [nb, np0, np1, np2, k, c]) (dw : w.dims = [n, nj0, nj1, nj2, k])
    (cw : Packed w) (hw : 1 < nj0 * nj1 * nj2) (hk : 0 < k)
    (e0 : (ni0 : Int) = np0 + 2 * pad0 - nj0 + 1) (e1 : (ni1 : Int) = np1 + 2 * pad1 - nj1 + 1)
    (e2 : (ni2 : Int) = np2 + 2 * pad2 - nj2 + 1) :
    convolve3D x w pad0 pad1 pad2 q m =
      .ok (some (fresh q [nb, ni0, ni1, ni2, n, c]), allocZero m q (asize [nb, ni0, ni1, ni2, n, c])) := by
  obtain ⟨sw, hi⟩ := packed_idle3 dw cw hw hk (n := n)
  have hr := fresh_wf q [nb, ni0, ni1, ni2, n, c]
  have : conv3b (fresh q [nb, ni0, ni1, ni2, n, c]) x w (allocZero m q (asize [nb, ni0, ni1, ni2, n, c])) =
      .ok (allocZero m q (asize [nb, ni0, ni1, ni2, n, c])) := by
    have df : (fresh q [nb, ni0, ni1, ni2, n, c]).dims = [nb, ni0, ni1, ni2, n, c] := rfl
    simp only [conv3b, batches, dx, dw, df, List.getElem?_cons_zero, List.getElem?_cons_succ, decide_true, Res.assrt_true,
      Res.ok_bind, Res.get]
    refine loop_ok fun b => ?_
    rw [SV.slice_eq _ hr rfl, Res.ok_bind, x.slice_eq hx dx, Res.ok_bind]
    exact conv3ac_idle (np0 := np0) (np1 := np1) (np2 := np2) (hr.sub b) (hx.sub b) rfl (by simp [SV.sub, dx]) dw sw hi _
  simp only [convolve3D, dx, dw, decide_true, Res.assrt_true, Res.ok_bind, sizeOf_eq e0, sizeOf_eq e1, sizeOf_eq e2, make, this]

/-- What is true: when the slices have the layouts `add_mprod` knows, the sums are added. -/
theorem C180_channels_partial [NonUnitalNonAssocSemiring α] {r x w : SV} {m : Buf α} {Xf Wf : List Nat → α}
    (h : Ready r x w m Xf Wf) {ni0 ni1 ni2 np0 np1 np2 nj0 nj1 nj2 n k c : Nat}
    {rs0 rs1 rs2 rs3 rs4 xs0 xs1 xs2 xs3 xs4 ws0 ws1 ws2 ws3 ws4 : Int}
    (dr : r.dims = [ni0, ni1, ni2, n, c]) (dx : x.dims = [np0, np1, np2, k, c]) (dw : w.dims = [n, nj0, nj1, nj2, k])
    (sr : r.strides = [rs0, rs1, rs2, rs3, rs4]) (sx : x.strides = [xs0, xs1, xs2, xs3, xs4])
    (sw : w.strides = [ws0, ws1, ws2, ws3, ws4]) {pad0 pad1 pad2 : Int}
    (hpad0 : HalfOf ((ni0 : Int) - np0 + nj0 - 1) pad0) (hpad1 : HalfOf ((ni1 : Int) - np1 + nj1 - 1) pad1)
    (hpad2 : HalfOf ((ni2 : Int) - np2 + nj2 - 1) pad2)
    (hm : Multiplies ⟨0, [n, c], [rs3, rs4]⟩ ⟨0, [n, k], [ws0, ws4]⟩ ⟨0, [k, c], [xs3, xs4]⟩) :
    ∃ m', conv3ac r x w m = .ok m' ∧ r.Gains (rfwd3 pad0 pad1 pad2 nj0 np0 nj1 np1 nj2 np2 k Wf Xf) m m' := by
  obtain ⟨ro, rd, rs⟩ := r
  obtain ⟨xo, xd, xs⟩ := x
  obtain ⟨wo, wd, ws⟩ := w
  simp only at dr dx dw sr sx sw
  subst dr dx dw sr sx sw
  refine (acc_prog (prog3_acc (mprod_isProd c) (lim := nj2) rfl rfl false pad0 pad1 pad2 h.xval h.wval h.inx h.inw h.has h.out nj2
    (Or.inl ⟨by simp, le_refl _, rfl⟩)) fun m => ?_).gains h.inj
  have e : ∀ (a b d : Int) (m : Buf α), mprod ⟨a, [n, c], [rs3, rs4]⟩ ⟨b, [n, k], [ws0, ws4]⟩ ⟨d, [k, c], [xs3, xs4]⟩ m =
      SV.addMprod ⟨a, [n, c], [rs3, rs4]⟩ ⟨b, [n, k], [ws0, ws4]⟩ ⟨d, [k, c], [xs3, xs4]⟩ m := by
    intro a b d m
    unfold mprod
    exact if_pos hm
  simp only [conv3ac, decide_true, Res.assrt_true, Res.ok_bind, padOf_eq hpad0, padOf_eq hpad1, padOf_eq hpad2, prog3, e,
    Bool.false_eq_true, false_and, if_false]

/-! ## C181: the input gradient, three axes -/

/-- `Σ W(a,j0,j1,j2,b) R(i0,i1,i2,a,cx)` over `a` and over `i_t + j_t - pad_t = p_t`, at index `(p0,p1,p2,b,cx)`. -/
def rbwdX3 [NonUnitalNonAssocSemiring α] (pad0 pad1 pad2 : Int) (nj0 ni0 nj1 ni1 nj2 ni2 n : Nat) (Wf Rf : List Nat → α) :
    List Nat → α
  | p0 :: p1 :: p2 :: b :: cx => sumTo nj0 fun j0 => sumTo ni0 fun i0 =>
      if (i0 : Int) + j0 - pad0 = p0 then
        sumTo nj1 fun j1 => sumTo ni1 fun i1 =>
          if (i1 : Int) + j1 - pad1 = p1 then
            sumTo nj2 fun j2 => sumTo ni2 fun i2 =>
              if (i2 : Int) + j2 - pad2 = p2 then sumTo n fun a => Wf [a, j0, j1, j2, b] * Rf (i0 :: i1 :: i2 :: a :: cx) else 0
          else 0
      else 0
  | _ => 0

/-- The filter with its channels exchanged and its positions reversed. -/
def rev3 (nj0 nj1 nj2 : Nat) : List Nat → List Nat
  | [b, j0, j1, j2, a] => [a, nj0 - 1 - j0, nj1 - 1 - j1, nj2 - 1 - j2, b]
  | l => l

theorem rbwdX3_eq [NonUnitalNonAssocSemiring α] (pad0 pad1 pad2 : Int) (nj0 ni0 nj1 ni1 nj2 ni2 n : Nat) (Wf Rf : List Nat → α)
    (ix : List Nat) :
    rfwd3 ((nj0 : Int) - 1 - pad0) ((nj1 : Int) - 1 - pad1) ((nj2 : Int) - 1 - pad2) nj0 ni0 nj1 ni1 nj2 ni2 n
      (fun jx => Wf (rev3 nj0 nj1 nj2 jx)) Rf ix = rbwdX3 pad0 pad1 pad2 nj0 ni0 nj1 ni1 nj2 ni2 n Wf Rf ix := by
  match ix with
  | [] => rfl
  | [_] => rfl
  | [_, _] => rfl
  | [_, _, _] => rfl
  | p0 :: p1 :: p2 :: b :: cx =>
    refine window_rev pad0 nj0 ni0 p0 _ _ fun j0 i0 hj0 _ => window_rev pad1 nj1 ni1 p1 _ _ fun j1 i1 hj1 _ =>
      window_rev pad2 nj2 ni2 p2 _ _ fun j2 i2 hj2 _ => sumTo_congr fun a _ => ?_
    simp only [rev3]
    rw [show nj0 - 1 - (nj0 - 1 - j0) = j0 by omega, show nj1 - 1 - (nj1 - 1 - j1) = j1 by omega,
      show nj2 - 1 - (nj2 - 1 - j2) = j2 by omega]

theorem rev3_through (o : Int) (n nj0 nj1 nj2 k : Nat) (s0 s1 s2 s3 s4 : Int) :
    Through ⟨o + ((nj0 : Int) - 1) * s1 + ((nj1 : Int) - 1) * s2 + ((nj2 : Int) - 1) * s3, [k, nj0, nj1, nj2, n],
      [s4, -s1, -s2, -s3, s0]⟩ ⟨o, [n, nj0, nj1, nj2, k], [s0, s1, s2, s3, s4]⟩ (rev3 nj0 nj1 nj2) := by
  intro ix hix
  match ix, hix with
  | [b, j0, j1, j2, a], hix =>
    simp only [InRange, List.forall₂_cons] at hix
    refine ⟨by simp [InRange, rev3]; omega, ?_⟩
    simp only [SV.cell, sdot, rev3]
    rw [show ((nj0 - 1 - j0 : Nat) : Int) = (nj0 : Int) - 1 - j0 by omega,
      show ((nj1 - 1 - j1 : Nat) : Int) = (nj1 : Int) - 1 - j1 by omega,
      show ((nj2 - 1 - j2 : Nat) : Int) = (nj2 : Int) - 1 - j2 by omega]
    ring

/-- `RtensorConvolve3d_back0()(rg,xg,w)` adds the input gradient of the convolution with paddings `pad_t`, when the sizes fit
exactly, the filter is as long along its second as along its third axis, and the padding along the third axis is not the
largest one (or the filter has length one there). -/
theorem C181_gains [NonUnitalNonAssocSemiring α] {r x w : SV} {m : Buf α} {Rf Wf : List Nat → α} (h : Ready x r w m Rf Wf)
    {ni0 ni1 ni2 np0 np1 np2 nj0 nj1 nj2 n k : Nat}
    (dr : r.dims = [ni0, ni1, ni2, n]) (dx : x.dims = [np0, np1, np2, k]) (dw : w.dims = [n, nj0, nj1, nj2, k])
    {pad0 pad1 pad2 : Int}
    (hpad0 : (ni0 : Int) - np0 + nj0 - 1 = 2 * pad0) (hpad1 : (ni1 : Int) - np1 + nj1 - 1 = 2 * pad1)
    (hpad2 : (ni2 : Int) - np2 + nj2 - 1 = 2 * pad2) (hfit : (pad2 ≠ nj2 - 1 ∧ nj1 = nj2) ∨ (pad2 = 0 ∧ nj2 = 1)) :
    ∃ m', conv3aBack0 r x w m = .ok m' ∧ x.Gains (rbwdX3 pad0 pad1 pad2 nj0 ni0 nj1 ni1 nj2 ni2 n Wf Rf) m m' := by
  obtain ⟨wo, wd, ws⟩ := w
  have hrw := h.xwf
  unfold SV.WF at hrw
  rw [dr] at hrw
  simp only at dw
  subst dw
  match ws, h.wwf, sr : r.strides, hrw with
  | [s0, s1, s2, s3, s4], _, [rs0, rs1, rs2, rs3], _ =>
    have ht := rev3_through wo n nj0 nj1 nj2 k s0 s1 s2 s3 s4
    obtain ⟨m', k1, k2⟩ := C178_gains (h.throughW (by exact rfl) ht) dx dr rfl sr rfl (pad0 := (nj0 : Int) - 1 - pad0)
      (pad1 := (nj1 : Int) - 1 - pad1) (pad2 := (nj2 : Int) - 1 - pad2) (Or.inl (by omega)) (Or.inl (by omega)) (Or.inl (by omega))
      (hfit.imp (fun h => ⟨by omega, h.2⟩) fun h => ⟨by omega, Or.inl (by omega), by omega⟩)
    exact ⟨m', k1, Gains.congr k2 fun ix hix => rbwdX3_eq _ _ _ _ _ _ _ _ _ _ _ _ ix⟩

/-! ## C182: the input gradient, largest padding -/

/-- With the largest padding along the third axis the reversed filter is read as though its positions followed each other. -/
theorem C182_full_fails : ∃ (r x w : SV) (m : Buf Int) (Rf Wf : List Nat → Int),
    Ready x r w m Rf Wf ∧ r.dims = [1, 1, 2, 1] ∧ x.dims = [1, 1, 1, 1] ∧ w.dims = [1, 1, 1, 2, 1] ∧ Packed r ∧ Packed x ∧
      Packed w ∧ (2 : Int) - 1 + 2 - 1 = 2 * 1 ∧
      ¬ ∃ m', conv3aBack0 r x w m = .ok m' ∧ x.Gains (rbwdX3 0 0 1 1 1 1 1 2 2 1 Wf Rf) m m' :=
  ⟨⟨1, [1, 1, 2, 1], [2, 2, 1, 1]⟩, ⟨0, [1, 1, 1, 1], [1, 1, 1, 1]⟩, ⟨3, [1, 1, 1, 2, 1], [2, 2, 2, 1, 1]⟩,
    memOf [0, 1, 2, 3, 5, 7, 11],
    entries ⟨1, [1, 1, 2, 1], [2, 2, 1, 1]⟩ (memOf [0, 1, 2, 3, 5, 7, 11]),
    entries ⟨3, [1, 1, 1, 2, 1], [2, 2, 2, 1, 1]⟩ (memOf [0, 1, 2, 3, 5, 7, 11]),
    ready_of rfl rfl rfl (by decide) (by decide) (by decide) (by decide) (by decide) (by decide), rfl, rfl, rfl, rfl, rfl, rfl,
    by decide,
    not_gains 1 [some 27] [0, 0, 0, 0] 0 27 0 (by decide) rfl (by decide) rfl (by decide) rfl (by decide)⟩

/-- With a further axis the gradient of a packed filter of more than one position is not added at all. -/
theorem C182_channels_fails [Zero α] [Add α] [Mul α] {r x w : SV} {ni0 ni1 ni2 np0 np1 np2 nj0 nj1 nj2 n k c : Nat}
    (hr : r.WF) (hx : x.WF) (dr : r.dims = [ni0, ni1, ni2, n, c]) (dx : x.dims = [np0, np1, np2, k, c])
    (dw : w.dims = [n, nj0, nj1, nj2, k]) (cw : Packed w) (hw : 1 < nj0 * nj1 * nj2) (hk : 0 < k) (m : Buf α) :
    conv3acBack0 r x w m = .ok m := by
  have sw := (packed_idle3 dw cw hw hk (n := n)).1
  simp only [conv3acBack0, dw, sw]
  refine conv3ac_idle hx hr dx dr rfl rfl (fun o => ?_) m
  have e : nj0 * (nj1 * (nj2 * k)) = nj0 * nj1 * nj2 * k := by ring
  have : 2 * k ≤ nj0 * nj1 * nj2 * k := Nat.mul_le_mul_right _ hw
  refine ⟨?_, ?_⟩
  · rintro ⟨h1, _⟩
    simp only [List.getElem?_cons_succ, List.getElem?_cons_zero, Option.some.injEq] at h1
    omega
  · rintro ⟨_, e, h1, h2⟩
    simp only [List.getElem?_cons_succ, List.getElem?_cons_zero, Option.some.injEq] at h1 h2
    omega

/-- Where the layout admits the product, the gradient is added. -/
theorem C182_channels_partial [NonUnitalNonAssocSemiring α] {r x w : SV} {m : Buf α} {Rf Wf : List Nat → α} (h : Ready x r w m Rf Wf)
    {ni0 ni1 ni2 np0 np1 np2 nj0 nj1 nj2 n k c : Nat} {rs0 rs1 rs2 rs3 rs4 xs0 xs1 xs2 xs3 xs4 ws0 ws1 ws2 ws3 ws4 : Int}
    (dr : r.dims = [ni0, ni1, ni2, n, c]) (dx : x.dims = [np0, np1, np2, k, c]) (dw : w.dims = [n, nj0, nj1, nj2, k])
    (sr : r.strides = [rs0, rs1, rs2, rs3, rs4]) (sx : x.strides = [xs0, xs1, xs2, xs3, xs4])
    (sw : w.strides = [ws0, ws1, ws2, ws3, ws4]) {pad0 pad1 pad2 : Int}
    (hpad0 : (ni0 : Int) - np0 + nj0 - 1 = 2 * pad0) (hpad1 : (ni1 : Int) - np1 + nj1 - 1 = 2 * pad1)
    (hpad2 : (ni2 : Int) - np2 + nj2 - 1 = 2 * pad2)
    (hm : Multiplies ⟨0, [k, c], [xs3, xs4]⟩ ⟨0, [k, n], [ws4, ws0]⟩ ⟨0, [n, c], [rs3, rs4]⟩) :
    ∃ m', conv3acBack0 r x w m = .ok m' ∧ x.Gains (rbwdX3 pad0 pad1 pad2 nj0 ni0 nj1 ni1 nj2 ni2 n Wf Rf) m m' := by
  obtain ⟨wo, wd, ws⟩ := w
  simp only at dw sw
  subst dw sw
  have ht := rev3_through wo n nj0 nj1 nj2 k ws0 ws1 ws2 ws3 ws4
  obtain ⟨m', k1, k2⟩ := C180_channels_partial (h.throughW (by exact rfl) ht) dx dr rfl sx sr rfl (pad0 := (nj0 : Int) - 1 - pad0)
    (pad1 := (nj1 : Int) - 1 - pad1) (pad2 := (nj2 : Int) - 1 - pad2) (Or.inl (by omega)) (Or.inl (by omega)) (Or.inl (by omega)) hm
  exact ⟨m', k1, Gains.congr k2 fun ix hix => rbwdX3_eq _ _ _ _ _ _ _ _ _ _ _ _ ix⟩

/-! ## Concrete cases -/

/-- Padding 1 along the second axis, odd total along the first. -/
example : ∃ m', conv2a ⟨0, [2, 2, 1], [2, 1, 1]⟩ ⟨4, [2, 2, 1], [2, 1, 1]⟩ ⟨8, [1, 2, 3, 1], [6, 3, 1, 1]⟩
      (memOf [100, 0, 0, 0, 1, 2, 3, 4, 1, 10, 100, 2, 20, 200]) = .ok m' ∧
    (⟨0, [2, 2, 1], [2, 1, 1]⟩ : SV).Gains (rfwd2 0 1 2 2 3 2 1
      (entries ⟨8, [1, 2, 3, 1], [6, 3, 1, 1]⟩ (memOf [100, 0, 0, 0, 1, 2, 3, 4, 1, 10, 100, 2, 20, 200]))
      (entries ⟨4, [2, 2, 1], [2, 1, 1]⟩ (memOf [100, 0, 0, 0, 1, 2, 3, 4, 1, 10, 100, 2, 20, 200])))
      (memOf [100, 0, 0, 0, 1, 2, 3, 4, 1, 10, 100, 2, 20, 200]) m' :=
  C175_gains (by exact ready_of rfl rfl rfl (by decide) (by decide) (by decide) (by decide) (by decide) (by decide)) rfl rfl rfl rfl rfl
    (Or.inr (Or.inl (by decide))) (Or.inl (by decide)) (Or.inl (by decide))

example : after 4 (conv2a ⟨0, [2, 2, 1], [2, 1, 1]⟩ ⟨4, [2, 2, 1], [2, 1, 1]⟩ ⟨8, [1, 2, 3, 1], [6, 3, 1, 1]⟩
    (memOf [100, 0, 0, 0, 1, 2, 3, 4, 1, 10, 100, 2, 20, 200])) = some [some 1170, some 107, some 430, some 43] := by decide

/-- No padding, two channels. -/
example : Made1 (convolve2D ⟨0, [1, 3, 2], [6, 2, 1]⟩ ⟨6, [1, 1, 2, 2], [4, 4, 2, 1]⟩ 0 0 20 (memOf [1, 2, 3, 4, 5, 6, 1, 10, 100, 1000]))
    (memOf [1, 2, 3, 4, 5, 6, 1, 10, 100, 1000]) 20 [1, 2, 1]
    (rfwd2 0 0 1 1 2 3 2 (entries ⟨6, [1, 1, 2, 2], [4, 4, 2, 1]⟩ (memOf [1, 2, 3, 4, 5, 6, 1, 10, 100, 1000]))
      (entries ⟨0, [1, 3, 2], [6, 2, 1]⟩ (memOf [1, 2, 3, 4, 5, 6, 1, 10, 100, 1000]))) :=
  C175_convolve2D ⟨rfl, rfl, holds_of (by decide), holds_of (by decide), fun c h1 h2 => by simp [memOf]; omega⟩ rfl rfl rfl rfl
    (by decide) (by decide)

/-- A packed filter of two positions: the result is made of zeros, the sum is 21. -/
example : convolve2D ⟨0, [2, 1, 1, 1], [1, 1, 1, 1]⟩ ⟨2, [1, 2, 1, 1], [2, 1, 1, 1]⟩ 0 0 9 (memOf [1, 2, 1, 10]) =
      .ok (some (fresh 9 [1, 1, 1, 1]), allocZero (memOf [1, 2, 1, 10]) 9 (asize [1, 1, 1, 1])) ∧
    rfwd2 0 0 2 2 1 1 1 (entries ⟨2, [1, 2, 1, 1], [2, 1, 1, 1]⟩ (memOf [1, 2, 1, 10]))
      (entries ⟨0, [2, 1, 1, 1], [1, 1, 1, 1]⟩ (memOf [1, 2, 1, 10])) [0, 0, 0, 0] = 21 :=
  ⟨C177_zero_fails rfl rfl rfl rfl (Or.inl (by decide)) (by decide) (by decide) (by decide) (by decide) (by decide), by decide⟩

/-- A filter laid out position by position, each a row-major matrix, is multiplied with. -/
example : ∃ m', conv2ac ⟨0, [2, 1, 1, 1], [1, 1, 1, 1]⟩ ⟨2, [2, 1, 2, 1], [2, 2, 1, 1]⟩ ⟨6, [1, 1, 3, 2], [2, 2, 2, 1]⟩
      (memOf [0, 0, 1, 2, 3, 4, 1, 10, 5, 6, 7, 8]) = .ok m' ∧
    (⟨0, [2, 1, 1, 1], [1, 1, 1, 1]⟩ : SV).Gains (rfwd2 0 1 1 2 3 1 2
      (entries ⟨6, [1, 1, 3, 2], [2, 2, 2, 1]⟩ (memOf [0, 0, 1, 2, 3, 4, 1, 10, 5, 6, 7, 8]))
      (entries ⟨2, [2, 1, 2, 1], [2, 2, 1, 1]⟩ (memOf [0, 0, 1, 2, 3, 4, 1, 10, 5, 6, 7, 8])))
      (memOf [0, 0, 1, 2, 3, 4, 1, 10, 5, 6, 7, 8]) m' :=
  C177_channels_partial (by exact ready_of rfl rfl rfl (by decide) (by decide) (by decide) (by decide) (by decide) (by decide))
    rfl rfl rfl rfl rfl rfl (Or.inl (by decide)) (Or.inl (by decide)) (Or.inl ⟨by decide, by unfold Multiplies; decide⟩)

example : after 2 (conv2ac ⟨0, [2, 1, 1, 1], [1, 1, 1, 1]⟩ ⟨2, [2, 1, 2, 1], [2, 2, 1, 1]⟩ ⟨6, [1, 1, 3, 2], [2, 2, 2, 1]⟩
    (memOf [0, 0, 1, 2, 3, 4, 1, 10, 5, 6, 7, 8])) = some [some 17, some 39] := by decide

/-- Three axes, filter 1 by 2 by 2, no padding; and the gradient of its input. -/
example : Made1 (convolve3D ⟨0, [1, 2, 2, 1], [4, 2, 1, 1]⟩ ⟨4, [1, 1, 2, 2, 1], [4, 4, 2, 1, 1]⟩ 0 0 0 20
      (memOf [1, 2, 3, 4, 1, 10, 100, 1000])) (memOf [1, 2, 3, 4, 1, 10, 100, 1000]) 20 [1, 1, 1, 1]
    (rfwd3 0 0 0 1 1 2 2 2 2 1 (entries ⟨4, [1, 1, 2, 2, 1], [4, 4, 2, 1, 1]⟩ (memOf [1, 2, 3, 4, 1, 10, 100, 1000]))
      (entries ⟨0, [1, 2, 2, 1], [4, 2, 1, 1]⟩ (memOf [1, 2, 3, 4, 1, 10, 100, 1000]))) :=
  C178_convolve3D ⟨rfl, rfl, holds_of (by decide), holds_of (by decide), fun c h1 h2 => by simp [memOf]; omega⟩ rfl rfl rfl rfl
    (by decide) (by decide) (by decide) (Or.inl rfl)

example : ∃ m', conv3aBack0 ⟨4, [1, 1, 1, 1], [1, 1, 1, 1]⟩ ⟨0, [1, 2, 2, 1], [4, 2, 1, 1]⟩ ⟨5, [1, 1, 2, 2, 1], [4, 4, 2, 1, 1]⟩
      (memOf [0, 0, 0, 0, 3, 1, 10, 100, 1000]) = .ok m' ∧
    (⟨0, [1, 2, 2, 1], [4, 2, 1, 1]⟩ : SV).Gains (rbwdX3 0 0 0 1 1 2 1 2 1 1
      (entries ⟨5, [1, 1, 2, 2, 1], [4, 4, 2, 1, 1]⟩ (memOf [0, 0, 0, 0, 3, 1, 10, 100, 1000]))
      (entries ⟨4, [1, 1, 1, 1], [1, 1, 1, 1]⟩ (memOf [0, 0, 0, 0, 3, 1, 10, 100, 1000])))
      (memOf [0, 0, 0, 0, 3, 1, 10, 100, 1000]) m' :=
  C181_gains (by exact ready_of rfl rfl rfl (by decide) (by decide) (by decide) (by decide) (by decide) (by decide)) rfl rfl rfl
    (by decide) (by decide) (by decide) (Or.inl (by decide))

example : after 4 (conv3aBack0 ⟨4, [1, 1, 1, 1], [1, 1, 1, 1]⟩ ⟨0, [1, 2, 2, 1], [4, 2, 1, 1]⟩ ⟨5, [1, 1, 2, 2, 1], [4, 4, 2, 1, 1]⟩
    (memOf [0, 0, 0, 0, 3, 1, 10, 100, 1000])) = some [some 3, some 30, some 300, some 3000] := by decide

/-- The filter of sizes 1, 1, 3 of `C179_short_fails`: only the first of its three positions is used. -/
example : ∃ m', conv3a ⟨0, [1, 1, 2, 1], [2, 2, 1, 1]⟩ ⟨2, [1, 1, 2, 1], [2, 2, 1, 1]⟩ ⟨4, [1, 1, 1, 3, 1], [3, 3, 3, 1, 1]⟩
      (memOf [0, 0, 7, 11, 2, 3, 5]) = .ok m' ∧
    (⟨0, [1, 1, 2, 1], [2, 2, 1, 1]⟩ : SV).Gains (rfwd3 0 0 1 1 1 1 1 1 2 1
      (entries ⟨4, [1, 1, 1, 3, 1], [3, 3, 3, 1, 1]⟩ (memOf [0, 0, 7, 11, 2, 3, 5]))
      (entries ⟨2, [1, 1, 2, 1], [2, 2, 1, 1]⟩ (memOf [0, 0, 7, 11, 2, 3, 5]))) (memOf [0, 0, 7, 11, 2, 3, 5]) m' :=
  C179_short_partial (by exact ready_of rfl rfl rfl (by decide) (by decide) (by decide) (by decide) (by decide) (by decide)) rfl rfl rfl
    (Or.inl (by decide)) (Or.inl (by decide)) (Or.inl (by decide)) (by decide) (by decide)

/-- The packed filter of two positions, three axes: zeros, the sum is 21. -/
example : convolve3D ⟨0, [1, 2, 1, 1, 1], [2, 1, 1, 1, 1]⟩ ⟨2, [1, 1, 2, 1, 1], [2, 2, 1, 1, 1]⟩ 0 0 0 9 (memOf [1, 2, 1, 10]) =
      .ok (some (fresh 9 [1, 1, 1, 1, 1]), allocZero (memOf [1, 2, 1, 10]) 9 (asize [1, 1, 1, 1, 1])) ∧
    rfwd3 0 0 0 1 1 2 2 1 1 1 (entries ⟨2, [1, 1, 2, 1, 1], [2, 2, 1, 1, 1]⟩ (memOf [1, 2, 1, 10]))
      (entries ⟨0, [1, 2, 1, 1, 1], [2, 1, 1, 1, 1]⟩ (memOf [1, 2, 1, 10])) [0, 0, 0, 0, 0] = 21 :=
  ⟨C180_zero_fails rfl rfl rfl rfl (by decide) (by decide) (by decide) (by decide) (by decide), by decide⟩

/-- A filter of one position is multiplied with. -/
example : ∃ m', conv3ac ⟨0, [1, 1, 2, 1, 1], [2, 2, 1, 1, 1]⟩ ⟨2, [1, 1, 2, 1, 1], [2, 2, 1, 1, 1]⟩ ⟨4, [1, 1, 1, 1, 1], [1, 1, 1, 1, 1]⟩
      (memOf [0, 0, 7, 11, 3]) = .ok m' ∧
    (⟨0, [1, 1, 2, 1, 1], [2, 2, 1, 1, 1]⟩ : SV).Gains (rfwd3 0 0 0 1 1 1 1 1 2 1
      (entries ⟨4, [1, 1, 1, 1, 1], [1, 1, 1, 1, 1]⟩ (memOf [0, 0, 7, 11, 3]))
      (entries ⟨2, [1, 1, 2, 1, 1], [2, 2, 1, 1, 1]⟩ (memOf [0, 0, 7, 11, 3]))) (memOf [0, 0, 7, 11, 3]) m' :=
  C180_channels_partial (by exact ready_of rfl rfl rfl (by decide) (by decide) (by decide) (by decide) (by decide) (by decide))
    rfl rfl rfl rfl rfl rfl (Or.inl (by decide)) (Or.inl (by decide)) (Or.inl (by decide)) (by unfold Multiplies; decide)

example : ∃ m', conv3acBack0 ⟨2, [1, 1, 2, 1, 1], [2, 2, 1, 1, 1]⟩ ⟨0, [1, 1, 2, 1, 1], [2, 2, 1, 1, 1]⟩ ⟨4, [1, 1, 1, 1, 1], [1, 1, 1, 1, 1]⟩
      (memOf [0, 0, 7, 11, 3]) = .ok m' ∧
    (⟨0, [1, 1, 2, 1, 1], [2, 2, 1, 1, 1]⟩ : SV).Gains (rbwdX3 0 0 0 1 1 1 1 1 2 1
      (entries ⟨4, [1, 1, 1, 1, 1], [1, 1, 1, 1, 1]⟩ (memOf [0, 0, 7, 11, 3]))
      (entries ⟨2, [1, 1, 2, 1, 1], [2, 2, 1, 1, 1]⟩ (memOf [0, 0, 7, 11, 3]))) (memOf [0, 0, 7, 11, 3]) m' :=
  C182_channels_partial (by exact ready_of rfl rfl rfl (by decide) (by decide) (by decide) (by decide) (by decide) (by decide))
    rfl rfl rfl rfl rfl rfl (by decide) (by decide) (by decide) (by unfold Multiplies; decide)

end RConv
end Cnine
