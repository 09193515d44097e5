import Verif.Lemmas.RConvSparse
import Verif.Props.CSR

/-!
# C183–C186: convolutions of float views with sparse filters

The filter is given by entries (row, column, value): the row is the output channel, the column is
`(j0 J1 + j1) A + b` for filter position `(j0,j1)` and input channel `b` (likewise with three axes).
-/

namespace Cnine
namespace RConv

open Conv

variable {α : Type}

/-- The result is addressable, its entries are distinct cells, none of them an entry of `x`. -/
structure Ready1 (r x : SV) (m : Buf α) (Xf : List Nat → α) : Prop where
  rwf : r.WF
  xwf : x.WF
  has : r.Has m
  inj : r.Inj
  rx : r.Apart x
  xval : x.Holds m Xf

theorem Ready1.ready {r x : SV} {m : Buf α} {Xf : List Nat → α} (h : Ready1 r x m Xf) : Ready r x x m Xf Xf :=
  ⟨h.rwf, h.xwf, h.xwf, h.has, h.inj, h.rx, h.rx, h.xval, h.xval⟩

/-- The operand of a call that makes its result: memory is free where the result will be. -/
structure Input (x : SV) (m : Buf α) (Xf : List Nat → α) (q n : Nat) : Prop where
  xwf : x.WF
  xval : x.Holds m Xf
  free : ∀ c, q ≤ c → c < q + n → m c = none

theorem Input.ready [Zero α] {x : SV} {m : Buf α} {Xf : List Nat → α} {q : Nat} {dims : List Nat}
    (h : Input x m Xf q (asize dims)) : Ready1 (fresh q dims) x (allocZero m q (asize dims)) Xf :=
  have h' := (Inputs.ready ⟨h.xwf, h.xwf, h.xval, h.xval, h.free⟩ : Ready (fresh q dims) x x (allocZero m q (asize dims)) Xf Xf)
  ⟨h'.rwf, h'.xwf, h'.has, h'.inj, h'.rx, h'.xval⟩

theorem forM_congr {σ ι : Type} {l : List ι} {f g : σ → ι → Res σ} (h : ∀ i ∈ l, ∀ s, f s i = g s i) (s : σ) :
    Res.forM l s f = Res.forM l s g := by
  induction l generalizing s with
  | nil => rfl
  | cons i l ih =>
    rw [Res.forM_cons, Res.forM_cons, h i (by simp)]
    congr 1
    funext t
    exact ih (fun j hj => h j (by simp [hj])) t

theorem loop_congr' {σ : Type} {n : Nat} {f g : Nat → σ → Res σ} (h : ∀ i s, f i s = g i s) (s : σ) : loop n s f = loop n s g := by
  rw [show f = g from funext fun i => funext fun s => h i s]

theorem at1_of (o : Int) (n : Nat) (s : Int) (i : Nat) : SV.at1 ⟨o, [n], [s]⟩ i = .ok (o + s * i) := by
  simp [SV.at1, Res.get, Int.mul_comm]

theorem at2_of (o : Int) (n k : Nat) (s t : Int) (i j : Nat) : SV.at2 ⟨o, [n, k], [s, t]⟩ i j = .ok (o + s * i + t * j) := by
  simp [SV.at2, Res.get, Int.mul_comm, Int.add_assoc]

section acc
variable [NonUnitalNonAssocSemiring α] {r x : SV} {m : Buf α} {Xf : List Nat → α} {P : Nat → Prop}
  (hr : r.WF) (hx : x.WF) (vx : x.Holds m Xf) (ix : In P x) (ar : r.Has m) (or : Out P r)
include hr hx vx ix ar or

theorem conv2s_acc {ni0 ni1 np0 np1 n A J0 J1 : Nat} (dr : r.dims = [ni0, ni1, n]) (dx : x.dims = [np0, np1, A])
    {es : List (Nat × Nat × α)} (hes : ∀ e ∈ es, e.1 < n ∧ e.2.1 < J0 * J1 * A) {pad0 pad1 : Int}
    (hpad0 : HalfOf ((ni0 : Int) - np0 + J0 - 1) pad0) (hpad1 : HalfOf ((ni1 : Int) - np1 + J1 - 1) pad1) :
    Acc P m (conv2s r x n es J0 J1) (spread r (rfwd2 pad0 pad1 J0 np0 J1 np1 A (fil2 J1 A es) Xf)) := by
  refine acc_prog (acc2s row0_isRow hr ar or hx vx ix pad0 pad1 dr dx es hes) fun m => ?_
  obtain ⟨ro, rd, rs⟩ := r
  obtain ⟨xo, xd, xs⟩ := x
  simp only at dr dx
  subst dr dx
  match rs, hr, xs, hx with
  | [rs0, rs1, rs2], _, [xs0, xs1, xs2], _ =>
    simp only [conv2s, decide_true, Res.assrt_true, Res.ok_bind, padOf_eq hpad0, padOf_eq hpad1]
    refine loop_congr' (fun i0 m => loop_congr' (fun i1 m => forM_congr (fun e he m => ?_) m) m) m
    obtain ⟨h1, hA, _⟩ := column2 (hes e he).2
    rw [decide_eq_true (show J1 * A ≠ 0 from Nat.mul_ne_zero (by omega) (by omega)), Res.need_true, Res.ok_bind]
    simp only [at1_of, Res.ok_bind, row0, SV.sub, List.headD_cons, List.tail_cons, Int.add_assoc]

theorem conv2sc_acc {ni0 ni1 np0 np1 n A J0 J1 c : Nat} (dr : r.dims = [ni0, ni1, n, c]) (dx : x.dims = [np0, np1, A, c])
    {es : List (Nat × Nat × α)} (hes : ∀ e ∈ es, e.1 < n ∧ e.2.1 < J0 * J1 * A) {pad0 pad1 : Int}
    (hpad0 : HalfOf ((ni0 : Int) - np0 + J0 - 1) pad0) (hpad1 : HalfOf ((ni1 : Int) - np1 + J1 - 1) pad1) :
    Acc P m (conv2sc r x n es J0 J1) (spread r (rfwd2 pad0 pad1 J0 np0 J1 np1 A (fil2 J1 A es) Xf)) := by
  refine acc_prog (acc2s (row1_isRow c) hr ar or hx vx ix pad0 pad1 dr dx es hes) fun m => ?_
  obtain ⟨ro, rd, rs⟩ := r
  obtain ⟨xo, xd, xs⟩ := x
  simp only at dr dx
  subst dr dx
  match rs, hr, xs, hx with
  | [rs0, rs1, rs2, rs3], _, [xs0, xs1, xs2, xs3], _ =>
    simp only [conv2sc, decide_true, Res.assrt_true, Res.ok_bind, padOf_eq hpad0, padOf_eq hpad1]
    refine loop_congr' (fun i0 m => loop_congr' (fun i1 m => forM_congr (fun e he m => ?_) m) m) m
    obtain ⟨h1, hA, _⟩ := column2 (hes e he).2
    rw [decide_eq_true (show J1 * A ≠ 0 from Nat.mul_ne_zero (by omega) (by omega)), Res.need_true, Res.ok_bind]
    simp only [at2_of, Res.ok_bind, row0, row1, SV.sub, List.headD_cons, List.tail_cons, Int.add_assoc]

theorem conv3s_acc {ni0 ni1 ni2 np0 np1 np2 n A J0 J1 J2 : Nat} (dr : r.dims = [ni0, ni1, ni2, n])
    (dx : x.dims = [np0, np1, np2, A])
    {es : List (Nat × Nat × α)} (hes : ∀ e ∈ es, e.1 < n ∧ e.2.1 < J0 * J1 * J2 * A) {pad0 pad1 pad2 : Int}
    (hpad0 : HalfOf ((ni0 : Int) - np0 + J0 - 1) pad0) (hpad1 : HalfOf ((ni1 : Int) - np1 + J1 - 1) pad1)
    (hpad2 : HalfOf ((ni2 : Int) - np2 + J2 - 1) pad2) :
    Acc P m (conv3s r x n es J0 J1 J2)
      (spread r (rfwd3 pad0 pad1 pad2 J0 np0 J1 np1 J2 np2 A (fil3 J1 J2 A es) Xf)) := by
  refine acc_prog (acc3s row0_isRow hr ar or hx vx ix pad0 pad1 pad2 dr dx es hes) fun m => ?_
  obtain ⟨ro, rd, rs⟩ := r
  obtain ⟨xo, xd, xs⟩ := x
  simp only at dr dx
  subst dr dx
  match rs, hr, xs, hx with
  | [rs0, rs1, rs2, rs3], _, [xs0, xs1, xs2, xs3], _ =>
    simp only [conv3s, decide_true, Res.assrt_true, Res.ok_bind, padOf_eq hpad0, padOf_eq hpad1, padOf_eq hpad2]
    refine loop_congr' (fun i0 m => loop_congr' (fun i1 m => loop_congr' (fun i2 m => forM_congr (fun e he m => ?_) m) m) m) m
    obtain ⟨h1, h2, hA, _⟩ := column3 (hes e he).2
    rw [decide_eq_true (show J2 * A ≠ 0 ∧ J1 ≠ 0 from ⟨Nat.mul_ne_zero (by omega) (by omega), by omega⟩), Res.need_true, Res.ok_bind]
    simp only [at1_of, Res.ok_bind, row0, SV.sub, List.headD_cons, List.tail_cons, Int.add_assoc]

theorem conv3sc_acc {ni0 ni1 ni2 np0 np1 np2 n A J0 J1 J2 c : Nat} (dr : r.dims = [ni0, ni1, ni2, n, c])
    (dx : x.dims = [np0, np1, np2, A, c])
    {es : List (Nat × Nat × α)} (hes : ∀ e ∈ es, e.1 < n ∧ e.2.1 < J0 * J1 * J2 * A) {pad0 pad1 pad2 : Int}
    (hpad0 : HalfOf ((ni0 : Int) - np0 + J0 - 1) pad0) (hpad1 : HalfOf ((ni1 : Int) - np1 + J1 - 1) pad1)
    (hpad2 : HalfOf ((ni2 : Int) - np2 + J2 - 1) pad2) :
    Acc P m (conv3sc r x n es J0 J1 J2)
      (spread r (rfwd3 pad0 pad1 pad2 J0 np0 J1 np1 J2 np2 A (fil3 J1 J2 A es) Xf)) := by
  refine acc_prog (acc3s (row1_isRow c) hr ar or hx vx ix pad0 pad1 pad2 dr dx es hes) fun m => ?_
  obtain ⟨ro, rd, rs⟩ := r
  obtain ⟨xo, xd, xs⟩ := x
  simp only at dr dx
  subst dr dx
  match rs, hr, xs, hx with
  | [rs0, rs1, rs2, rs3, rs4], _, [xs0, xs1, xs2, xs3, xs4], _ =>
    simp only [conv3sc, decide_true, Res.assrt_true, Res.ok_bind, padOf_eq hpad0, padOf_eq hpad1, padOf_eq hpad2]
    refine loop_congr' (fun i0 m => loop_congr' (fun i1 m => loop_congr' (fun i2 m => forM_congr (fun e he m => ?_) m) m) m) m
    obtain ⟨h1, h2, hA, _⟩ := column3 (hes e he).2
    rw [decide_eq_true (show J2 * A ≠ 0 ∧ J1 ≠ 0 from ⟨Nat.mul_ne_zero (by omega) (by omega), by omega⟩), Res.need_true, Res.ok_bind]
    simp only [at2_of, Res.ok_bind, row0, row1, SV.sub, List.headD_cons, List.tail_cons, Int.add_assoc]

/-- The loop over batches. -/
theorem batches_acc {nb : Nat} {ds es : List Nat} (dr : r.dims = nb :: ds) (dx : x.dims = nb :: es)
    {f : SV → SV → Buf α → Res (Buf α)} {G : (List Nat → α) → List Nat → α}
    (hf : ∀ (R X : SV) (Yf : List Nat → α), R.WF → X.WF → R.dims = ds → X.dims = es → X.Holds m Yf → In P X → R.Has m → Out P R →
      Acc P m (f R X) (spread R (G Yf))) :
    Acc P m (batches f r x) (spread r (perBatch G Xf)) := by
  refine Acc.congr (acc_axis hr dr fun b hb => hf (r.sub b) (x.sub b) (fun jx => Xf (b :: jx)) (hr.sub b) (hx.sub b)
    (by simp [SV.sub, dr]) (by simp [SV.sub, dx]) (Holds_sub hx dx hb vx) (In_sub hx dx hb ix) (Has_sub hr dr hb ar)
    (Out_sub hr dr hb or)) (fun m _ => ?_) (fun c => rfl)
  have hg : Res.get x.dims 0 = .ok nb := by simp [Res.get, dx]
  simp only [batches, hg, Res.ok_bind]
  refine loop_congr' (fun b m => ?_) m
  rw [r.slice_eq hr dr, Res.ok_bind, x.slice_eq hx dx, Res.ok_bind]

end acc

/-- Each block on its own: the result at `(b,i0,i1,d,…)` is computed from the entries `(b,p0,p1,d,…)` of the operand. -/
def perBlock [Zero α] (f : (List Nat → α) → List Nat → α) (Xf : List Nat → α) : List Nat → α
  | b :: i0 :: i1 :: d :: ix => f (fun | p0 :: p1 :: jx => Xf (b :: p0 :: p1 :: d :: jx) | _ => 0) (i0 :: i1 :: ix)
  | _ => 0

/-- Put index `d` in third place. -/
def put2 (d : Nat) : List Nat → List Nat
  | i0 :: i1 :: ix => i0 :: i1 :: d :: ix
  | l => l

theorem spread_two [AddCommMonoid α] {v : SV} (hv : v.WF) {n0 n1 : Nat} {ds : List Nat} (hd : v.dims = n0 :: n1 :: ds)
    (G : List Nat → α) (c : Nat) :
    spread v G c = ((List.range n0).map fun (i : Nat) =>
      ((List.range n1).map fun (j : Nat) => spread ((v.sub i).sub j) (fun ix => G (i :: j :: ix)) c).sum).sum := by
  rw [← spread_cons v hv hd]
  refine congrArg List.sum (List.map_congr_left fun i _ => ?_)
  have d1 : (v.sub i).dims = n1 :: ds := by simp [SV.sub, hd]
  rw [← spread_cons (v.sub i) (hv.sub i) d1]

/-- A sum over a view, slice by slice along its third axis. -/
theorem spread_slice2 [AddCommMonoid α] (o : Int) (n0 n1 n2 n3 n4 : Nat) (s0 s1 s2 s3 s4 : Int) (G : List Nat → α) (c : Nat) :
    spread ⟨o, [n0, n1, n2, n3, n4], [s0, s1, s2, s3, s4]⟩ G c = ((List.range n2).map fun (d : Nat) =>
      spread ⟨o + s2 * d, [n0, n1, n3, n4], [s0, s1, s3, s4]⟩ (fun ix => G (put2 d ix)) c).sum := by
  have hw : (⟨o, [n0, n1, n2, n3, n4], [s0, s1, s2, s3, s4]⟩ : SV).WF := rfl
  rw [spread_two hw rfl]
  rw [List.map_congr_left (l := List.range n2) (g := fun (d : Nat) => ((List.range n0).map fun (i : Nat) =>
      ((List.range n1).map fun (j : Nat) => spread ⟨o + s0 * i + s1 * j + s2 * d, [n3, n4], [s3, s4]⟩
        (fun ix => G (i :: j :: d :: ix)) c).sum).sum) fun d _ => ?_]
  · symm
    rw [sum_comm']
    refine congrArg List.sum (List.map_congr_left fun i _ => ?_)
    rw [sum_comm']
    refine congrArg List.sum (List.map_congr_left fun j _ => ?_)
    symm
    have hw2 : (((⟨o, [n0, n1, n2, n3, n4], [s0, s1, s2, s3, s4]⟩ : SV).sub i).sub j).WF := rfl
    rw [← spread_cons _ hw2 rfl]
    rfl
  · have hw2 : (⟨o + s2 * d, [n0, n1, n3, n4], [s0, s1, s3, s4]⟩ : SV).WF := rfl
    rw [spread_two hw2 rfl]
    refine congrArg List.sum (List.map_congr_left fun i _ => congrArg List.sum (List.map_congr_left fun j _ => ?_))
    have e : o + s2 * (d : Int) + s0 * (i : Int) + s1 * (j : Int) = o + s0 * i + s1 * j + s2 * d := by ring
    simp only [SV.sub, List.headD_cons, List.tail_cons, put2, e]

theorem put2_through (o : Int) (n0 n1 n2 n3 n4 : Nat) (s0 s1 s2 s3 s4 : Int) {d : Nat} (hd : d < n2) :
    Through ⟨o + s2 * d, [n0, n1, n3, n4], [s0, s1, s3, s4]⟩ ⟨o, [n0, n1, n2, n3, n4], [s0, s1, s2, s3, s4]⟩ (put2 d) := by
  intro ix hix
  match ix, hix with
  | [a, b, e, f], hix =>
    simp only [InRange, List.forall₂_cons] at hix
    refine ⟨by simp [InRange, put2]; omega, ?_⟩
    simp only [SV.cell, sdot, put2]
    ring

theorem blocks_acc [NonUnitalNonAssocSemiring α] {r x : SV} {m : Buf α} {Xf : List Nat → α} {P : Nat → Prop}
    (hr : r.WF) (hx : x.WF) (vx : x.Holds m Xf) (ix : In P x) (ar : r.Has m) (or : Out P r)
    {nb ni0 ni1 np0 np1 nd n A c c' : Nat} (dr : r.dims = [nb, ni0, ni1, nd, n, c]) (dx : x.dims = [nb, np0, np1, nd, A, c'])
    {f : SV → SV → Buf α → Res (Buf α)} {G : (List Nat → α) → List Nat → α}
    (hG : ∀ Yf Zf : List Nat → α, (∀ jx, InRange jx [np0, np1, A, c'] → Yf jx = Zf jx) → ∀ jx, InRange jx [ni0, ni1, n, c] → G Yf jx = G Zf jx)
    (hf : ∀ (R X : SV) (Yf : List Nat → α), R.WF → X.WF → R.dims = [ni0, ni1, n, c] → X.dims = [np0, np1, A, c'] → X.Holds m Yf →
      In P X → R.Has m → Out P R → Acc P m (f R X) (spread R (G Yf))) :
    Acc P m (blocks f r x) (spread r (perBlock G Xf)) := by
  obtain ⟨ro, rd, rs⟩ := r
  obtain ⟨xo, xd, xs⟩ := x
  simp only at dr dx
  subst dr dx
  match rs, hr, xs, hx with
  | [rs0, rs1, rs2, rs3, rs4, rs5], hr, [xs0, xs1, xs2, xs3, xs4, xs5], hx =>
    refine Acc.congr (acc_axis (body := fun b m => loop nd m fun d m =>
      f ⟨ro + rs0 * b + rs3 * d, [ni0, ni1, n, c], [rs1, rs2, rs4, rs5]⟩ ⟨xo + xs0 * b + xs3 * d, [np0, np1, A, c'], [xs1, xs2, xs4, xs5]⟩ m)
      hr rfl fun b hb => ?_) (fun m _ => ?_) (fun c => rfl)
    · refine Acc.congr (Acc.loop nd _ _ fun d hd => hf
        ⟨ro + rs0 * b + rs3 * d, [ni0, ni1, n, c], [rs1, rs2, rs4, rs5]⟩ ⟨xo + xs0 * b + xs3 * d, [np0, np1, A, c'], [xs1, xs2, xs4, xs5]⟩
        (fun jx => Xf (b :: put2 d jx)) rfl rfl rfl rfl ?_ ?_ ?_ ?_)
        (fun _ _ => rfl) (fun q => ?_)
      · exact (put2_through (xo + xs0 * b) np0 np1 nd A c' xs1 xs2 xs3 xs4 xs5 hd).holds (Holds_sub hx rfl hb vx)
      · exact through_in (put2_through (xo + xs0 * b) np0 np1 nd A c' xs1 xs2 xs3 xs4 xs5 hd) (In_sub hx rfl hb ix)
      · exact through_has (put2_through (ro + rs0 * b) ni0 ni1 nd n c rs1 rs2 rs3 rs4 rs5 hd) (Has_sub hr rfl hb ar)
      · exact through_out (put2_through (ro + rs0 * b) ni0 ni1 nd n c rs1 rs2 rs3 rs4 rs5 hd) (Out_sub hr rfl hb or)
      · refine (spread_slice2 (ro + rs0 * b) ni0 ni1 nd n c rs1 rs2 rs3 rs4 rs5 _ q).trans ?_
        refine congrArg List.sum (List.map_congr_left fun d _ => spread_congr _ (fun jx hjx => ?_) q)
        match jx, hjx with
        | [i0, i1, a, e], hjx =>
          refine hG _ _ (fun kx hkx => ?_) _ hjx
          match kx, hkx with
          | [_, _, _, _], _ => rfl
    · simp only [blocks, Res.get, List.getElem?_cons_zero, List.getElem?_cons_succ, Res.ok_bind]
      refine loop_congr' (fun b m => loop_congr' (fun d m => ?_) m) m
      rw [SV.slice_eq _ hr rfl, Res.ok_bind, SV.slice_eq _ hx rfl]
      simp only [SV.sub, List.headD_cons, List.tail_cons, Res.ok_bind, slice2_of]

/-- Only entries in range matter. -/
theorem rfwd2_congr [NonUnitalNonAssocSemiring α] (pad0 pad1 : Int) (nj0 np0 nj1 np1 k n : Nat) (cs : List Nat)
    (Wf Yf Zf : List Nat → α) (ni0 ni1 : Nat) (h : ∀ jx, InRange jx (np0 :: np1 :: k :: cs) → Yf jx = Zf jx) (ix : List Nat)
    (hix : InRange ix (ni0 :: ni1 :: n :: cs)) :
    rfwd2 pad0 pad1 nj0 np0 nj1 np1 k Wf Yf ix = rfwd2 pad0 pad1 nj0 np0 nj1 np1 k Wf Zf ix := by
  match ix, hix with
  | i0 :: i1 :: a :: cx, hix =>
    simp only [inRange_cons] at hix
    simp only [rfwd2]
    refine sumTo_congr fun j0 _ => sumTo_congr fun p0 hp0 => ?_
    congr 1
    refine sumTo_congr fun j1 _ => sumTo_congr fun p1 hp1 => ?_
    congr 1
    refine sumTo_congr fun b hb => ?_
    rw [h _ (inRange_cons.2 ⟨hp0, inRange_cons.2 ⟨hp1, inRange_cons.2 ⟨hb, hix.2.2.2⟩⟩⟩)]

/-! ## C183: two axes -/

/-- `RtensorConvolve2dSparse()(r,x,w,J0,J1)`, three and four axes. -/
theorem C183_gains [NonUnitalNonAssocSemiring α] {r x : SV} {m : Buf α} {Xf : List Nat → α} (h : Ready1 r x m Xf)
    {ni0 ni1 np0 np1 n A J0 J1 : Nat} (dr : r.dims = [ni0, ni1, n]) (dx : x.dims = [np0, np1, A])
    {es : List (Nat × Nat × α)} (hes : ∀ e ∈ es, e.1 < n ∧ e.2.1 < J0 * J1 * A) {pad0 pad1 : Int}
    (hpad0 : HalfOf ((ni0 : Int) - np0 + J0 - 1) pad0) (hpad1 : HalfOf ((ni1 : Int) - np1 + J1 - 1) pad1) :
    ∃ m', conv2s r x n es J0 J1 m = .ok m' ∧ r.Gains (rfwd2 pad0 pad1 J0 np0 J1 np1 A (fil2 J1 A es) Xf) m m' :=
  (conv2s_acc h.rwf h.xwf h.xval h.ready.inx h.has h.ready.out dr dx hes hpad0 hpad1).gains h.inj

theorem C183_channels [NonUnitalNonAssocSemiring α] {r x : SV} {m : Buf α} {Xf : List Nat → α} (h : Ready1 r x m Xf)
    {ni0 ni1 np0 np1 n A c J0 J1 : Nat} (dr : r.dims = [ni0, ni1, n, c]) (dx : x.dims = [np0, np1, A, c])
    {es : List (Nat × Nat × α)} (hes : ∀ e ∈ es, e.1 < n ∧ e.2.1 < J0 * J1 * A) {pad0 pad1 : Int}
    (hpad0 : HalfOf ((ni0 : Int) - np0 + J0 - 1) pad0) (hpad1 : HalfOf ((ni1 : Int) - np1 + J1 - 1) pad1) :
    ∃ m', conv2sc r x n es J0 J1 m = .ok m' ∧ r.Gains (rfwd2 pad0 pad1 J0 np0 J1 np1 A (fil2 J1 A es) Xf) m m' :=
  (conv2sc_acc h.rwf h.xwf h.xval h.ready.inx h.has h.ready.out dr dx hes hpad0 hpad1).gains h.inj

/-- With batches. -/
theorem C183_batches [NonUnitalNonAssocSemiring α] {r x : SV} {m : Buf α} {Xf : List Nat → α} (h : Ready1 r x m Xf)
    {nb ni0 ni1 np0 np1 n A c J0 J1 : Nat} (dr : r.dims = [nb, ni0, ni1, n, c]) (dx : x.dims = [nb, np0, np1, A, c])
    {es : List (Nat × Nat × α)} (hes : ∀ e ∈ es, e.1 < n ∧ e.2.1 < J0 * J1 * A) {pad0 pad1 : Int}
    (hpad0 : HalfOf ((ni0 : Int) - np0 + J0 - 1) pad0) (hpad1 : HalfOf ((ni1 : Int) - np1 + J1 - 1) pad1) :
    ∃ m', conv2sb r x n es J0 J1 m = .ok m' ∧
      r.Gains (perBatch (fun Yf => rfwd2 pad0 pad1 J0 np0 J1 np1 A (fil2 J1 A es) Yf) Xf) m m' := by
  refine (acc_prog (batches_acc h.rwf h.xwf h.xval h.ready.inx h.has h.ready.out dr dx fun R X Yf a1 a2 a3 a4 a5 a6 a7 a8 =>
    conv2sc_acc a1 a2 a5 a6 a7 a8 a3 a4 hes hpad0 hpad1) fun m => ?_).gains h.inj
  simp [conv2sb, dr, dx]

/-- With batches and blocks. -/
theorem C183_blocks [NonUnitalNonAssocSemiring α] {r x : SV} {m : Buf α} {Xf : List Nat → α} (h : Ready1 r x m Xf)
    {nb ni0 ni1 np0 np1 nd n A c J0 J1 : Nat} (dr : r.dims = [nb, ni0, ni1, nd, n, c]) (dx : x.dims = [nb, np0, np1, nd, A, c])
    {es : List (Nat × Nat × α)} (hes : ∀ e ∈ es, e.1 < n ∧ e.2.1 < J0 * J1 * A) {pad0 pad1 : Int}
    (hpad0 : HalfOf ((ni0 : Int) - np0 + J0 - 1) pad0) (hpad1 : HalfOf ((ni1 : Int) - np1 + J1 - 1) pad1) :
    ∃ m', conv2sbd r x n es J0 J1 m = .ok m' ∧
      r.Gains (perBlock (fun Yf => rfwd2 pad0 pad1 J0 np0 J1 np1 A (fil2 J1 A es) Yf) Xf) m m' := by
  refine (acc_prog (blocks_acc h.rwf h.xwf h.xval h.ready.inx h.has h.ready.out dr dx
    (fun Yf Zf e jx hjx => rfwd2_congr _ _ _ _ _ _ _ n [c] _ Yf Zf ni0 ni1 e jx hjx) fun R X Yf a1 a2 a3 a4 a5 a6 a7 a8 =>
    conv2sc_acc a1 a2 a5 a6 a7 a8 a3 a4 hes hpad0 hpad1) fun m => ?_).gains h.inj
  simp [conv2sbd, dr, dx]

/-! ## C184: three axes -/

theorem C184_gains [NonUnitalNonAssocSemiring α] {r x : SV} {m : Buf α} {Xf : List Nat → α} (h : Ready1 r x m Xf)
    {ni0 ni1 ni2 np0 np1 np2 n A J0 J1 J2 : Nat} (dr : r.dims = [ni0, ni1, ni2, n]) (dx : x.dims = [np0, np1, np2, A])
    {es : List (Nat × Nat × α)} (hes : ∀ e ∈ es, e.1 < n ∧ e.2.1 < J0 * J1 * J2 * A) {pad0 pad1 pad2 : Int}
    (hpad0 : HalfOf ((ni0 : Int) - np0 + J0 - 1) pad0) (hpad1 : HalfOf ((ni1 : Int) - np1 + J1 - 1) pad1)
    (hpad2 : HalfOf ((ni2 : Int) - np2 + J2 - 1) pad2) :
    ∃ m', conv3s r x n es J0 J1 J2 m = .ok m' ∧
      r.Gains (rfwd3 pad0 pad1 pad2 J0 np0 J1 np1 J2 np2 A (fil3 J1 J2 A es) Xf) m m' :=
  (conv3s_acc h.rwf h.xwf h.xval h.ready.inx h.has h.ready.out dr dx hes hpad0 hpad1 hpad2).gains h.inj

theorem C184_channels [NonUnitalNonAssocSemiring α] {r x : SV} {m : Buf α} {Xf : List Nat → α} (h : Ready1 r x m Xf)
    {ni0 ni1 ni2 np0 np1 np2 n A c J0 J1 J2 : Nat} (dr : r.dims = [ni0, ni1, ni2, n, c]) (dx : x.dims = [np0, np1, np2, A, c])
    {es : List (Nat × Nat × α)} (hes : ∀ e ∈ es, e.1 < n ∧ e.2.1 < J0 * J1 * J2 * A) {pad0 pad1 pad2 : Int}
    (hpad0 : HalfOf ((ni0 : Int) - np0 + J0 - 1) pad0) (hpad1 : HalfOf ((ni1 : Int) - np1 + J1 - 1) pad1)
    (hpad2 : HalfOf ((ni2 : Int) - np2 + J2 - 1) pad2) :
    ∃ m', conv3sc r x n es J0 J1 J2 m = .ok m' ∧
      r.Gains (rfwd3 pad0 pad1 pad2 J0 np0 J1 np1 J2 np2 A (fil3 J1 J2 A es) Xf) m m' :=
  (conv3sc_acc h.rwf h.xwf h.xval h.ready.inx h.has h.ready.out dr dx hes hpad0 hpad1 hpad2).gains h.inj

theorem C184_batches [NonUnitalNonAssocSemiring α] {r x : SV} {m : Buf α} {Xf : List Nat → α} (h : Ready1 r x m Xf)
    {nb ni0 ni1 ni2 np0 np1 np2 n A c J0 J1 J2 : Nat} (dr : r.dims = [nb, ni0, ni1, ni2, n, c])
    (dx : x.dims = [nb, np0, np1, np2, A, c])
    {es : List (Nat × Nat × α)} (hes : ∀ e ∈ es, e.1 < n ∧ e.2.1 < J0 * J1 * J2 * A) {pad0 pad1 pad2 : Int}
    (hpad0 : HalfOf ((ni0 : Int) - np0 + J0 - 1) pad0) (hpad1 : HalfOf ((ni1 : Int) - np1 + J1 - 1) pad1)
    (hpad2 : HalfOf ((ni2 : Int) - np2 + J2 - 1) pad2) :
    ∃ m', conv3sb r x n es J0 J1 J2 m = .ok m' ∧
      r.Gains (perBatch (fun Yf => rfwd3 pad0 pad1 pad2 J0 np0 J1 np1 J2 np2 A (fil3 J1 J2 A es) Yf) Xf) m m' := by
  refine (acc_prog (batches_acc h.rwf h.xwf h.xval h.ready.inx h.has h.ready.out dr dx fun R X Yf a1 a2 a3 a4 a5 a6 a7 a8 =>
    conv3sc_acc a1 a2 a5 a6 a7 a8 a3 a4 hes hpad0 hpad1 hpad2) fun m => ?_).gains h.inj
  simp [conv3sb, dr, dx]

/-! ## C185: the functions that make their result -/

section make
variable [NonUnitalNonAssocSemiring α] {x : SV} {m : Buf α} {Xf : List Nat → α} {es : List (Nat × Nat × α)}
  {q nb nd ni0 ni1 ni2 np0 np1 np2 n A c J0 J1 J2 : Nat} {pad0 pad1 pad2 : Int}

theorem C185_2D (h : Input x m Xf q (asize [ni0, ni1, n])) (dx : x.dims = [np0, np1, A])
    (hes : ∀ e ∈ es, e.1 < n ∧ e.2.1 < J0 * J1 * A)
    (h0 : (ni0 : Int) = np0 + 2 * pad0 - J0 + 1) (h1 : (ni1 : Int) = np1 + 2 * pad1 - J1 + 1) :
    Made1 (convolve2Ds x n (J0 * J1 * A) es J0 J1 pad0 pad1 q m) m q [ni0, ni1, n]
      (rfwd2 pad0 pad1 J0 np0 J1 np1 A (fil2 J1 A es) Xf) := by
  obtain ⟨m', k1, k2⟩ := C183_gains h.ready rfl dx hes (pad0 := pad0) (pad1 := pad1) (Or.inl (by omega)) (Or.inl (by omega))
  obtain ⟨k3, k4⟩ := made_gains k2
  refine ⟨m', ?_, k3, k4⟩
  simp only [convolve2Ds, dx, decide_true, Res.assrt_true, Res.ok_bind, sizeOf_eq h0, sizeOf_eq h1, make, k1]

theorem C185_2D_channels (h : Input x m Xf q (asize [ni0, ni1, n, c])) (dx : x.dims = [np0, np1, A, c])
    (hes : ∀ e ∈ es, e.1 < n ∧ e.2.1 < J0 * J1 * A)
    (h0 : (ni0 : Int) = np0 + 2 * pad0 - J0 + 1) (h1 : (ni1 : Int) = np1 + 2 * pad1 - J1 + 1) :
    Made1 (convolve2Ds x n (J0 * J1 * A) es J0 J1 pad0 pad1 q m) m q [ni0, ni1, n, c]
      (rfwd2 pad0 pad1 J0 np0 J1 np1 A (fil2 J1 A es) Xf) := by
  obtain ⟨m', k1, k2⟩ := C183_channels h.ready rfl dx hes (pad0 := pad0) (pad1 := pad1) (Or.inl (by omega)) (Or.inl (by omega))
  obtain ⟨k3, k4⟩ := made_gains k2
  refine ⟨m', ?_, k3, k4⟩
  simp only [convolve2Ds, dx, decide_true, Res.assrt_true, Res.ok_bind, sizeOf_eq h0, sizeOf_eq h1, make, k1]

theorem C185_2D_batches (h : Input x m Xf q (asize [nb, ni0, ni1, n, c])) (dx : x.dims = [nb, np0, np1, A, c])
    (hes : ∀ e ∈ es, e.1 < n ∧ e.2.1 < J0 * J1 * A)
    (h0 : (ni0 : Int) = np0 + 2 * pad0 - J0 + 1) (h1 : (ni1 : Int) = np1 + 2 * pad1 - J1 + 1) :
    Made1 (convolve2Ds x n (J0 * J1 * A) es J0 J1 pad0 pad1 q m) m q [nb, ni0, ni1, n, c]
      (perBatch (fun Yf => rfwd2 pad0 pad1 J0 np0 J1 np1 A (fil2 J1 A es) Yf) Xf) := by
  obtain ⟨m', k1, k2⟩ := C183_batches h.ready rfl dx hes (pad0 := pad0) (pad1 := pad1) (Or.inl (by omega)) (Or.inl (by omega))
  obtain ⟨k3, k4⟩ := made_gains k2
  refine ⟨m', ?_, k3, k4⟩
  simp only [convolve2Ds, dx, decide_true, Res.assrt_true, Res.ok_bind, sizeOf_eq h0, sizeOf_eq h1, make, k1]

theorem C185_2D_blocks (h : Input x m Xf q (asize [nb, ni0, ni1, nd, n, c])) (dx : x.dims = [nb, np0, np1, nd, A, c])
    (hes : ∀ e ∈ es, e.1 < n ∧ e.2.1 < J0 * J1 * A)
    (h0 : (ni0 : Int) = np0 + 2 * pad0 - J0 + 1) (h1 : (ni1 : Int) = np1 + 2 * pad1 - J1 + 1) :
    Made1 (convolve2Ds x n (J0 * J1 * A) es J0 J1 pad0 pad1 q m) m q [nb, ni0, ni1, nd, n, c]
      (perBlock (fun Yf => rfwd2 pad0 pad1 J0 np0 J1 np1 A (fil2 J1 A es) Yf) Xf) := by
  obtain ⟨m', k1, k2⟩ := C183_blocks h.ready rfl dx hes (pad0 := pad0) (pad1 := pad1) (Or.inl (by omega)) (Or.inl (by omega))
  obtain ⟨k3, k4⟩ := made_gains k2
  refine ⟨m', ?_, k3, k4⟩
  simp only [convolve2Ds, dx, decide_true, Res.assrt_true, Res.ok_bind, sizeOf_eq h0, sizeOf_eq h1, make, k1]

theorem C185_3D (h : Input x m Xf q (asize [ni0, ni1, ni2, n])) (dx : x.dims = [np0, np1, np2, A])
    (hes : ∀ e ∈ es, e.1 < n ∧ e.2.1 < J0 * J1 * J2 * A)
    (h0 : (ni0 : Int) = np0 + 2 * pad0 - J0 + 1) (h1 : (ni1 : Int) = np1 + 2 * pad1 - J1 + 1)
    (h2 : (ni2 : Int) = np2 + 2 * pad2 - J2 + 1) :
    Made1 (convolve3Ds x n (J0 * J1 * J2 * A) es J0 J1 J2 pad0 pad1 pad2 q m) m q [ni0, ni1, ni2, n]
      (rfwd3 pad0 pad1 pad2 J0 np0 J1 np1 J2 np2 A (fil3 J1 J2 A es) Xf) := by
  obtain ⟨m', k1, k2⟩ := C184_gains h.ready rfl dx hes (pad0 := pad0) (pad1 := pad1) (pad2 := pad2) (Or.inl (by omega))
    (Or.inl (by omega)) (Or.inl (by omega))
  obtain ⟨k3, k4⟩ := made_gains k2
  refine ⟨m', ?_, k3, k4⟩
  simp only [convolve3Ds, dx, decide_true, Res.assrt_true, Res.ok_bind, sizeOf_eq h0, sizeOf_eq h1, sizeOf_eq h2, make, k1]

theorem C185_3D_channels (h : Input x m Xf q (asize [ni0, ni1, ni2, n, c])) (dx : x.dims = [np0, np1, np2, A, c])
    (hes : ∀ e ∈ es, e.1 < n ∧ e.2.1 < J0 * J1 * J2 * A)
    (h0 : (ni0 : Int) = np0 + 2 * pad0 - J0 + 1) (h1 : (ni1 : Int) = np1 + 2 * pad1 - J1 + 1)
    (h2 : (ni2 : Int) = np2 + 2 * pad2 - J2 + 1) :
    Made1 (convolve3Ds x n (J0 * J1 * J2 * A) es J0 J1 J2 pad0 pad1 pad2 q m) m q [ni0, ni1, ni2, n, c]
      (rfwd3 pad0 pad1 pad2 J0 np0 J1 np1 J2 np2 A (fil3 J1 J2 A es) Xf) := by
  obtain ⟨m', k1, k2⟩ := C184_channels h.ready rfl dx hes (pad0 := pad0) (pad1 := pad1) (pad2 := pad2) (Or.inl (by omega))
    (Or.inl (by omega)) (Or.inl (by omega))
  obtain ⟨k3, k4⟩ := made_gains k2
  refine ⟨m', ?_, k3, k4⟩
  simp only [convolve3Ds, dx, decide_true, Res.assrt_true, Res.ok_bind, sizeOf_eq h0, sizeOf_eq h1, sizeOf_eq h2, make, k1]

theorem C185_3D_batches (h : Input x m Xf q (asize [nb, ni0, ni1, ni2, n, c])) (dx : x.dims = [nb, np0, np1, np2, A, c])
    (hes : ∀ e ∈ es, e.1 < n ∧ e.2.1 < J0 * J1 * J2 * A)
    (h0 : (ni0 : Int) = np0 + 2 * pad0 - J0 + 1) (h1 : (ni1 : Int) = np1 + 2 * pad1 - J1 + 1)
    (h2 : (ni2 : Int) = np2 + 2 * pad2 - J2 + 1) :
    Made1 (convolve3Ds x n (J0 * J1 * J2 * A) es J0 J1 J2 pad0 pad1 pad2 q m) m q [nb, ni0, ni1, ni2, n, c]
      (perBatch (fun Yf => rfwd3 pad0 pad1 pad2 J0 np0 J1 np1 J2 np2 A (fil3 J1 J2 A es) Yf) Xf) := by
  obtain ⟨m', k1, k2⟩ := C184_batches h.ready rfl dx hes (pad0 := pad0) (pad1 := pad1) (pad2 := pad2) (Or.inl (by omega))
    (Or.inl (by omega)) (Or.inl (by omega))
  obtain ⟨k3, k4⟩ := made_gains k2
  refine ⟨m', ?_, k3, k4⟩
  simp only [convolve3Ds, dx, decide_true, Res.assrt_true, Res.ok_bind, sizeOf_eq h0, sizeOf_eq h1, sizeOf_eq h2, make, k1]

end make

/-! ## C186: filters stored from dense matrices -/

theorem grid_nodup (n k : Nat) : (SpMat.grid n k).Nodup := by
  unfold SpMat.grid
  refine List.nodup_flatMap.2 ⟨fun i _ => List.Nodup.map (fun a b e => by simpa using e) List.nodup_range, ?_⟩
  refine List.Pairwise.imp (fun {a b} hab => ?_) (List.nodup_range (n := n))
  intro p hp hq
  simp only [List.mem_map, List.mem_range] at hp hq
  obtain ⟨_, _, rfl⟩ := hp
  obtain ⟨_, _, e⟩ := hq
  exact hab (by simpa using (congrArg Prod.fst e).symm)

/-- The nonzero cells of a dense matrix, as entries, add up to it. -/
theorem entries_sum [AddCommMonoid α] [DecidableEq α] (n k : Nat) (W : Nat → Nat → α) {a c : Nat} (ha : a < n) (hc : c < k) :
    ((((SpMat.grid n k).filter fun (p : Nat × Nat) => W p.1 p.2 ≠ 0).map fun (p : Nat × Nat) => (p.1, p.2, W p.1 p.2)).map
      fun e => if e.1 = a ∧ e.2.1 = c then e.2.2 else 0).sum = W a c := by
  rw [List.map_map]
  by_cases h0 : W a c = 0
  · rw [h0, List.map_congr_left (g := fun _ => (0 : α)) fun p _ => ?_]
    · exact sum_map_zero' _
    · simp only [Function.comp_apply]
      split_ifs with h
      · rw [h.1, h.2, h0]
      · rfl
  · rw [sum_single _ ((grid_nodup n k).filter _) _ (a, c)]
    · simp
    · simp [SpMat.mem_grid, ha, hc, h0]
    · intro p _ hne
      simp only [Function.comp_apply]
      rw [if_neg]
      rintro ⟨rfl, rfl⟩
      exact hne rfl

theorem triplesOf_ofDense [AddCommMonoid α] [DecidableEq α] (P : Pun α) (n k : Nat) (W : Nat → Nat → α) :
    ∃ w es, CSR.ofDense n k W = .ok w ∧ w.n.toNat = n ∧ w.m.toNat = k ∧ triplesOf P w = .ok es ∧
      (∀ e ∈ es, e.1 < n ∧ e.2.1 < k) ∧
        ∀ a c, a < n → c < k → (es.map fun e => if e.1 = a ∧ e.2.1 = c then e.2.2 else 0).sum = W a c := by
  obtain ⟨w, h1, h2, h3, h4⟩ := C49_ofDense P n k W
  refine ⟨w, _, h1, by simp [h2], by simp [h3], by rw [triplesOf, h4, Res.ok_bind], ?_, ?_⟩
  · intro e he
    simp only [List.map_map, List.mem_map, List.mem_filter, Function.comp_apply] at he
    obtain ⟨p, ⟨hp, _⟩, rfl⟩ := he
    have := SpMat.mem_grid.1 (show (p.1, p.2) ∈ SpMat.grid n k from hp)
    simpa using this
  · intro a c ha hc
    rw [← entries_sum n k W ha hc]
    simp [List.map_map, Function.comp_def]

theorem rfwd2_filter [NonUnitalNonAssocSemiring α] (pad0 pad1 : Int) (nj0 np0 nj1 np1 k n : Nat) (ds : List Nat) (ni0 ni1 : Nat)
    (Wf Vf Xf : List Nat → α)
    (h : ∀ a j0 j1 b, a < n → j0 < nj0 → j1 < nj1 → b < k → Wf [a, j0, j1, b] = Vf [a, j0, j1, b]) (ix : List Nat)
    (hix : InRange ix (ni0 :: ni1 :: n :: ds)) :
    rfwd2 pad0 pad1 nj0 np0 nj1 np1 k Wf Xf ix = rfwd2 pad0 pad1 nj0 np0 nj1 np1 k Vf Xf ix := by
  match ix, hix with
  | i0 :: i1 :: a :: cx, hix =>
    simp only [inRange_cons] at hix
    simp only [rfwd2]
    refine sumTo_congr fun j0 hj0 => sumTo_congr fun p0 hp0 => ?_
    congr 1
    refine sumTo_congr fun j1 hj1 => sumTo_congr fun p1 hp1 => ?_
    congr 1
    refine sumTo_congr fun b hb => ?_
    rw [h _ _ _ _ hix.2.2.1 hj0 hj1 hb]

theorem rfwd3_filter [NonUnitalNonAssocSemiring α] (pad0 pad1 pad2 : Int) (nj0 np0 nj1 np1 nj2 np2 k n : Nat) (ds : List Nat)
    (ni0 ni1 ni2 : Nat) (Wf Vf Xf : List Nat → α)
    (h : ∀ a j0 j1 j2 b, a < n → j0 < nj0 → j1 < nj1 → j2 < nj2 → b < k → Wf [a, j0, j1, j2, b] = Vf [a, j0, j1, j2, b])
    (ix : List Nat) (hix : InRange ix (ni0 :: ni1 :: ni2 :: n :: ds)) :
    rfwd3 pad0 pad1 pad2 nj0 np0 nj1 np1 nj2 np2 k Wf Xf ix = rfwd3 pad0 pad1 pad2 nj0 np0 nj1 np1 nj2 np2 k Vf Xf ix := by
  match ix, hix with
  | i0 :: i1 :: i2 :: a :: cx, hix =>
    simp only [inRange_cons] at hix
    simp only [rfwd3]
    refine sumTo_congr fun j0 hj0 => sumTo_congr fun p0 hp0 => ?_
    congr 1
    refine sumTo_congr fun j1 hj1 => sumTo_congr fun p1 hp1 => ?_
    congr 1
    refine sumTo_congr fun j2 hj2 => sumTo_congr fun p2 hp2 => ?_
    congr 1
    refine sumTo_congr fun b hb => ?_
    rw [h _ _ _ _ _ hix.2.2.2.1 hj0 hj1 hj2 hb]

theorem made_congr {res : Res (Option SV × Buf α)} {m : Buf α} {q : Nat} {dims : List Nat} {G G' : List Nat → α}
    (h : Made1 res m q dims G) (e : ∀ ix, InRange ix dims → G' ix = G ix) : Made1 res m q dims G' := by
  obtain ⟨m', h1, h2, h3⟩ := h
  exact ⟨m', h1, fun ix hix => by rw [e ix hix]; exact h2 ix hix, h3⟩

theorem flat2 {J0 J1 A j0 j1 b : Nat} (h0 : j0 < J0) (h1 : j1 < J1) (hb : b < A) : (j0 * J1 + j1) * A + b < J0 * J1 * A := by
  have a1 : j0 * J1 + j1 < J0 * J1 := by
    have := Nat.mul_le_mul_right J1 (show j0 + 1 ≤ J0 by omega)
    rw [Nat.succ_mul] at this
    omega
  have := Nat.mul_le_mul_right A (show j0 * J1 + j1 + 1 ≤ J0 * J1 by omega)
  rw [Nat.succ_mul] at this
  omega

/-- The rows of a dense matrix as filters of two axes. -/
def unflat2 [Zero α] (J1 A : Nat) (W : Nat → Nat → α) : List Nat → α
  | [a, j0, j1, b] => W a ((j0 * J1 + j1) * A + b)
  | _ => 0

def unflat3 [Zero α] (J1 J2 A : Nat) (W : Nat → Nat → α) : List Nat → α
  | [a, j0, j1, j2, b] => W a (((j0 * J1 + j1) * J2 + j2) * A + b)
  | _ => 0

/-- Store a dense `n` by `J0 J1 A` matrix as CSR matrix and convolve with it: the result is that of the filter
`W(a,j0,j1,b)` in row `a`, column `(j0 J1 + j1) A + b`. -/
theorem C186_2D [NonUnitalNonAssocSemiring α] [DecidableEq α] (P : Pun α) {x : SV} {m : Buf α} {Xf : List Nat → α}
    {q ni0 ni1 np0 np1 n A J0 J1 : Nat} {pad0 pad1 : Int} (W : Nat → Nat → α) (h : Input x m Xf q (asize [ni0, ni1, n]))
    (dx : x.dims = [np0, np1, A])
    (h0 : (ni0 : Int) = np0 + 2 * pad0 - J0 + 1) (h1 : (ni1 : Int) = np1 + 2 * pad1 - J1 + 1) :
    Made1 (CSR.ofDense n (J0 * J1 * A) W >>= fun w => convolve2Dcsr P x w J0 J1 pad0 pad1 q m) m q [ni0, ni1, n]
      (rfwd2 pad0 pad1 J0 np0 J1 np1 A (unflat2 J1 A W) Xf) := by
  obtain ⟨w, es, k1, k2, k3, k4, k5, k6⟩ := triplesOf_ofDense P n (J0 * J1 * A) W
  rw [k1, Res.ok_bind, convolve2Dcsr, k4, Res.ok_bind, k2, k3]
  refine made_congr (C185_2D h dx k5 h0 h1) fun ix hix => ?_
  refine rfwd2_filter _ _ _ _ _ _ _ n [] ni0 ni1 _ _ _ (fun a j0 j1 b ha hj0 hj1 hb => ?_) ix hix
  exact (k6 a _ ha (flat2 hj0 hj1 hb)).symm

theorem C186_2D_channels [NonUnitalNonAssocSemiring α] [DecidableEq α] (P : Pun α) {x : SV} {m : Buf α} {Xf : List Nat → α}
    {q ni0 ni1 np0 np1 n A J0 J1 c : Nat} {pad0 pad1 : Int} (W : Nat → Nat → α) (h : Input x m Xf q (asize [ni0, ni1, n, c]))
    (dx : x.dims = [np0, np1, A, c])
    (h0 : (ni0 : Int) = np0 + 2 * pad0 - J0 + 1) (h1 : (ni1 : Int) = np1 + 2 * pad1 - J1 + 1) :
    Made1 (CSR.ofDense n (J0 * J1 * A) W >>= fun w => convolve2Dcsr P x w J0 J1 pad0 pad1 q m) m q [ni0, ni1, n, c]
      (rfwd2 pad0 pad1 J0 np0 J1 np1 A (unflat2 J1 A W) Xf) := by
  obtain ⟨w, es, k1, k2, k3, k4, k5, k6⟩ := triplesOf_ofDense P n (J0 * J1 * A) W
  rw [k1, Res.ok_bind, convolve2Dcsr, k4, Res.ok_bind, k2, k3]
  refine made_congr (C185_2D_channels h dx k5 h0 h1) fun ix hix => ?_
  refine rfwd2_filter _ _ _ _ _ _ _ n [c] ni0 ni1 _ _ _ (fun a j0 j1 b ha hj0 hj1 hb => ?_) ix hix
  exact (k6 a _ ha (flat2 hj0 hj1 hb)).symm

theorem C186_3D [NonUnitalNonAssocSemiring α] [DecidableEq α] (P : Pun α) {x : SV} {m : Buf α} {Xf : List Nat → α}
    {q ni0 ni1 ni2 np0 np1 np2 n A J0 J1 J2 : Nat} {pad0 pad1 pad2 : Int} (W : Nat → Nat → α)
    (h : Input x m Xf q (asize [ni0, ni1, ni2, n])) (dx : x.dims = [np0, np1, np2, A])
    (h0 : (ni0 : Int) = np0 + 2 * pad0 - J0 + 1) (h1 : (ni1 : Int) = np1 + 2 * pad1 - J1 + 1)
    (h2 : (ni2 : Int) = np2 + 2 * pad2 - J2 + 1) :
    Made1 (CSR.ofDense n (J0 * J1 * J2 * A) W >>= fun w => convolve3Dcsr P x w J0 J1 J2 pad0 pad1 pad2 q m) m q [ni0, ni1, ni2, n]
      (rfwd3 pad0 pad1 pad2 J0 np0 J1 np1 J2 np2 A (unflat3 J1 J2 A W) Xf) := by
  obtain ⟨w, es, k1, k2, k3, k4, k5, k6⟩ := triplesOf_ofDense P n (J0 * J1 * J2 * A) W
  rw [k1, Res.ok_bind, convolve3Dcsr, k4, Res.ok_bind, k2, k3]
  refine made_congr (C185_3D h dx k5 h0 h1 h2) fun ix hix => ?_
  refine rfwd3_filter _ _ _ _ _ _ _ _ _ _ n [] ni0 ni1 ni2 _ _ _ (fun a j0 j1 j2 b ha hj0 hj1 hj2 hb => ?_) ix hix
  have a1 : j0 * J1 + j1 < J0 * J1 := by
    have := flat2 hj0 hj1 Nat.one_pos
    omega
  exact (k6 a _ ha (flat2 a1 hj2 hb)).symm

/-! ## Concrete cases -/

theorem ready1_of {r x : SV} {m : Buf Int} (rwf : r.WF) (xwf : x.WF) (has : ∀ ix ∈ allIndices r.dims, (r.val m ix).isSome)
    (inj : ∀ ix ∈ allIndices r.dims, ∀ jx ∈ allIndices r.dims, r.cell ix = r.cell jx → ix = jx)
    (rx : ∀ ix ∈ allIndices r.dims, ∀ jx ∈ allIndices x.dims, r.cell ix ≠ x.cell jx)
    (xval : ∀ ix ∈ allIndices x.dims, (x.val m ix).isSome) : Ready1 r x m (entries x m) :=
  ⟨rwf, xwf, fun ix h => has ix (mem_allIndices.2 h),
    fun ix jx h h' => inj ix (mem_allIndices.2 h) jx (mem_allIndices.2 h'),
    fun ix jx h h' => rx ix (mem_allIndices.2 h) jx (mem_allIndices.2 h'),
    fun ix h => by
      obtain ⟨a, ha⟩ := Option.isSome_iff_exists.1 (xval ix (mem_allIndices.2 h))
      rw [entries, ha]; rfl⟩

/-- Two filter entries in the same place. -/
example : ∃ m', conv2s ⟨0, [2, 2, 1], [2, 1, 1]⟩ ⟨4, [2, 2, 2], [4, 2, 1]⟩ 1 [(0, 1, 10), (0, 1, 1), (0, 2, 100)] 1 2
      (memOf [0, 0, 0, 5, 1, 2, 3, 4, 5, 6, 7, 8]) = .ok m' ∧
    (⟨0, [2, 2, 1], [2, 1, 1]⟩ : SV).Gains (rfwd2 0 0 1 2 2 2 2 (fil2 2 2 [(0, 1, 10), (0, 1, 1), (0, 2, 100)])
      (entries ⟨4, [2, 2, 2], [4, 2, 1]⟩ (memOf [0, 0, 0, 5, 1, 2, 3, 4, 5, 6, 7, 8])))
      (memOf [0, 0, 0, 5, 1, 2, 3, 4, 5, 6, 7, 8]) m' :=
  C183_gains (by exact ready1_of rfl rfl (by decide) (by decide) (by decide) (by decide)) rfl rfl (by decide)
    (pad0 := 0) (pad1 := 0) (Or.inl (by decide)) (Or.inr (by decide))

example : after 4 (conv2s ⟨0, [2, 2, 1], [2, 1, 1]⟩ ⟨4, [2, 2, 2], [4, 2, 1]⟩ 1 [(0, 1, 10), (0, 1, 1), (0, 2, 100)] 1 2
    (memOf [0, 0, 0, 5, 1, 2, 3, 4, 5, 6, 7, 8])) = some [some 322, some 44, some 766, some 93] := by decide

/-- Batches and blocks. -/
example : ∃ m', conv2sbd ⟨0, [1, 1, 2, 2, 1, 1], [4, 4, 2, 1, 1, 1]⟩ ⟨4, [1, 1, 2, 2, 1, 1], [4, 4, 2, 1, 1, 1]⟩ 1 [(0, 0, 3)] 1 1
      (memOf [0, 0, 0, 0, 1, 2, 3, 4]) = .ok m' ∧
    (⟨0, [1, 1, 2, 2, 1, 1], [4, 4, 2, 1, 1, 1]⟩ : SV).Gains (perBlock (fun Yf => rfwd2 0 0 1 1 1 2 1 (fil2 1 1 [(0, 0, 3)]) Yf)
      (entries ⟨4, [1, 1, 2, 2, 1, 1], [4, 4, 2, 1, 1, 1]⟩ (memOf [0, 0, 0, 0, 1, 2, 3, 4]))) (memOf [0, 0, 0, 0, 1, 2, 3, 4]) m' :=
  C183_blocks (by exact ready1_of rfl rfl (by decide) (by decide) (by decide) (by decide)) rfl rfl (by decide)
    (pad0 := 0) (pad1 := 0) (Or.inl (by decide)) (Or.inl (by decide))

/-- Three axes with padding. -/
example : ∃ m', conv3s ⟨0, [1, 1, 2, 1], [2, 2, 1, 1]⟩ ⟨2, [1, 1, 2, 1], [2, 2, 1, 1]⟩ 1 [(0, 0, 3), (0, 2, 7)] 1 1 3
      (memOf [0, 0, 1, 2]) = .ok m' ∧
    (⟨0, [1, 1, 2, 1], [2, 2, 1, 1]⟩ : SV).Gains (rfwd3 0 0 1 1 1 1 1 3 2 1 (fil3 1 3 1 [(0, 0, 3), (0, 2, 7)])
      (entries ⟨2, [1, 1, 2, 1], [2, 2, 1, 1]⟩ (memOf [0, 0, 1, 2]))) (memOf [0, 0, 1, 2]) m' :=
  C184_gains (by exact ready1_of rfl rfl (by decide) (by decide) (by decide) (by decide)) rfl rfl (by decide)
    (pad0 := 0) (pad1 := 0) (pad2 := 1) (Or.inl (by decide)) (Or.inl (by decide)) (Or.inl (by decide))

example : after 2 (conv3s ⟨0, [1, 1, 2, 1], [2, 2, 1, 1]⟩ ⟨2, [1, 1, 2, 1], [2, 2, 1, 1]⟩ 1 [(0, 0, 3), (0, 2, 7)] 1 1 3
    (memOf [0, 0, 1, 2])) = some [some 14, some 3] := by decide

/-- A stored dense filter. -/
example : Made1 (CSR.ofDense 1 (1 * 2 * 1) (fun _ j => if j = 0 then 0 else 5) >>= fun w =>
      convolve2Dcsr Pun.example ⟨0, [1, 2, 1], [2, 1, 1]⟩ w 1 2 0 0 10 (memOf [3, 4])) (memOf [3, 4]) 10 [1, 1, 1]
    (rfwd2 0 0 1 1 2 2 1 (unflat2 2 1 (fun _ j => if j = 0 then 0 else 5)) (entries ⟨0, [1, 2, 1], [2, 1, 1]⟩ (memOf [3, 4]))) :=
  C186_2D Pun.example _ ⟨rfl, holds_of (by decide), fun c h1 h2 => by
    simp [memOf]; omega⟩ rfl (by decide) (by decide)

end RConv
end Cnine
