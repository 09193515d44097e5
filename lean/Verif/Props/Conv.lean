import Verif.Lemmas.Conv

/-!
# C167–C173: convolutions of tensor views

Every statement is about one relation between an output position `i`, a filter position `j` and an input position `p`, namely
`i + j - pad = p`.
-/

namespace Cnine

open Conv

variable {α : Type}

section pads
variable [NonUnitalNonAssocSemiring α]

theorem conv1d_core (ord : List Nat) (r x w : SV) (m : Buf α) (h : r.dims.length ≠ 5) :
    conv1d ord r x w m = conv1dCore r x w m := by
  unfold conv1d; rw [if_neg h]

theorem conv2d_core (ord : List Nat) (r x w : SV) (m : Buf α) (h : r.dims.length ≠ 5) :
    conv2d ord r x w m = conv2dCore r x w m := by
  unfold conv2d; rw [if_neg h]

theorem conv1dCore_acc {r x w : SV} (hr : r.WF) (hx : x.WF) (hw : w.WF) {ni np nj n k : Nat} {cs : List Nat}
    (hcs : cs = [] ∨ ∃ c, cs = [c])
    (dr : r.dims = ni :: n :: cs) (dx : x.dims = np :: k :: cs) (dw : w.dims = [nj, n, k]) {P : Nat → Prop} {m0 : Buf α}
    {Xf Wf : List Nat → α} (vx : x.Holds m0 Xf) (vw : w.Holds m0 Wf) (ix : In P x) (iw : In P w) (ar : r.Has m0) (or : Out P r) :
    Acc P m0 (conv1dCore r x w) (spread r (fwd1 (padOf ni np nj) nj np k Wf Xf)) := by
  rcases hcs with rfl | ⟨c, rfl⟩
  · refine Acc.congr (conv1d2_acc mvprod_isProd hr hx hw dr dx dw vx vw ix iw ar or) (fun m _ => ?_) (fun _ => rfl)
    simp [conv1dCore, dr, dx, dw, Res.get]
  · refine Acc.congr (conv1d2_acc (mprod_isProd c) hr hx hw dr dx dw vx vw ix iw ar or) (fun m _ => ?_) (fun _ => rfl)
    simp [conv1dCore, dr, dx, dw, Res.get]

theorem conv2dCore_acc {r x w : SV} (hr : r.WF) (hx : x.WF) (hw : w.WF) {ni0 ni1 np0 np1 nj0 nj1 n k : Nat} {cs : List Nat}
    (hcs : cs = [] ∨ ∃ c, cs = [c]) (dr : r.dims = ni0 :: ni1 :: n :: cs) (dx : x.dims = np0 :: np1 :: k :: cs)
    (dw : w.dims = [nj0, nj1, n, k]) {P : Nat → Prop} {m0 : Buf α} {Xf Wf : List Nat → α} (vx : x.Holds m0 Xf)
    (vw : w.Holds m0 Wf) (ix : In P x) (iw : In P w) (ar : r.Has m0) (or : Out P r) :
    Acc P m0 (conv2dCore r x w)
      (spread r (fwd2 (padOf ni0 np0 nj0) (padOf ni1 np1 nj1) nj0 np0 nj1 np1 k Wf Xf)) := by
  rcases hcs with rfl | ⟨c, rfl⟩
  · refine Acc.congr (conv2d3_acc mvprod_isProd hr hx hw dr dx dw vx vw ix iw ar or) (fun m _ => ?_) (fun _ => rfl)
    simp [conv2dCore, dr, dx, dw, Res.get]
  · refine Acc.congr (conv2d3_acc (mprod_isProd c) hr hx hw dr dx dw vx vw ix iw ar or) (fun m _ => ?_) (fun _ => rfl)
    simp [conv2dCore, dr, dx, dw, Res.get]

end pads

/-! ## C167: one axis -/

/-- `Convolve1D()(r,x,w)` with vectors: `r(i)` becomes the sum of `x(p) w(j)` over `i+j-pad = p`. -/
theorem C167_plain [NonUnitalNonAssocSemiring α] (ord : List Nat) {r x w : SV} {m : Buf α} {Xf Wf : List Nat → α}
    (h : Ready r x w m Xf Wf) {ni np nj : Nat} (dr : r.dims = [ni]) (dx : x.dims = [np]) (dw : w.dims = [nj]) {pad : Int}
    (hpad : HalfOf ((ni : Int) - np + nj - 1) pad) :
    ∃ m', conv1d ord r x w m = .ok m' ∧ r.Becomes (plain1 pad nj np Wf Xf) m m' := by
  obtain ⟨m', k1, k2⟩ := conv1d1_ok h.rwf h.xwf h.wwf dr dx dw h.xval h.wval h.inx h.inw h.has h.out h.inj
  rw [padOf_eq hpad] at k2
  refine ⟨m', ?_, k2⟩
  rw [conv1d_core _ _ _ _ _ (by rw [dr]; simp), ← k1]
  simp [conv1dCore, dr, dx, dw, Res.get]

/-- `Convolve1D()(r,x,w)` with a channel axis (`cs = []`), or a channel axis and one more axis: `r(i,a,c)` gains the sum of
`w(j,a,b) x(p,b,c)` over `b` and over `i+j-pad = p`. -/
theorem C167_channels [NonUnitalNonAssocSemiring α] (ord : List Nat) {r x w : SV} {m : Buf α} {Xf Wf : List Nat → α}
    (h : Ready r x w m Xf Wf) {ni np nj n k : Nat} {cs : List Nat} (hcs : cs = [] ∨ ∃ c, cs = [c])
    (dr : r.dims = ni :: n :: cs) (dx : x.dims = np :: k :: cs) (dw : w.dims = [nj, n, k]) {pad : Int}
    (hpad : HalfOf ((ni : Int) - np + nj - 1) pad) :
    ∃ m', conv1d ord r x w m = .ok m' ∧ r.Gains (fwd1 pad nj np k Wf Xf) m m' := by
  have := conv1dCore_acc h.rwf h.xwf h.wwf hcs dr dx dw h.xval h.wval h.inx h.inw h.has h.out
  rw [padOf_eq hpad] at this
  rw [conv1d_core _ _ _ _ _ (by rcases hcs with rfl | ⟨c, rfl⟩ <;> rw [dr] <;> simp)]
  exact this.gains h.inj

/-- Four axes: nothing is computed, though the comment announces the case `(b,i0,a,c)`; five axes: each slice has four, so
nothing either. -/
theorem C168_batches_fails [NonUnitalNonAssocSemiring α] (ord : List Nat) (r x w : SV) (m : Buf α)
    (hr : r.dims.length = 4) (hx : x.dims.length = 4) (hw : w.dims ≠ []) : conv1d ord r x w m = .ok m := by
  rw [conv1d_core _ _ _ _ _ (by omega)]
  obtain ⟨n, ds, hd⟩ := List.exists_cons_of_ne_nil hw
  simp [conv1dCore, hr, hx, hd, Res.get]

/-! ## C169: two axes -/

/-- `Convolve2D()(r,x,w)` with matrices. -/
theorem C169_plain [NonUnitalNonAssocSemiring α] (ord : List Nat) {r x w : SV} {m : Buf α} {Xf Wf : List Nat → α}
    (h : Ready r x w m Xf Wf) {ni0 ni1 np0 np1 nj0 nj1 : Nat} (dr : r.dims = [ni0, ni1]) (dx : x.dims = [np0, np1])
    (dw : w.dims = [nj0, nj1]) {pad0 pad1 : Int} (hpad0 : HalfOf ((ni0 : Int) - np0 + nj0 - 1) pad0)
    (hpad1 : HalfOf ((ni1 : Int) - np1 + nj1 - 1) pad1) :
    ∃ m', conv2d ord r x w m = .ok m' ∧ r.Becomes (plain2 pad0 pad1 nj0 np0 nj1 np1 Wf Xf) m m' := by
  obtain ⟨m', k1, k2⟩ := conv2d2_ok h.rwf h.xwf h.wwf dr dx dw h.xval h.wval h.inx h.inw h.has h.out h.inj
  rw [padOf_eq hpad0, padOf_eq hpad1] at k2
  refine ⟨m', ?_, k2⟩
  rw [conv2d_core _ _ _ _ _ (by rw [dr]; simp), ← k1]
  simp [conv2dCore, dr, dx, dw, Res.get]

/-- `Convolve2D()(r,x,w)` with a channel axis (`cs = []`), or a channel axis and one more axis. -/
theorem C169_channels [NonUnitalNonAssocSemiring α] (ord : List Nat) {r x w : SV} {m : Buf α} {Xf Wf : List Nat → α}
    (h : Ready r x w m Xf Wf) {ni0 ni1 np0 np1 nj0 nj1 n k : Nat} {cs : List Nat} (hcs : cs = [] ∨ ∃ c, cs = [c])
    (dr : r.dims = ni0 :: ni1 :: n :: cs) (dx : x.dims = np0 :: np1 :: k :: cs) (dw : w.dims = [nj0, nj1, n, k])
    {pad0 pad1 : Int} (hpad0 : HalfOf ((ni0 : Int) - np0 + nj0 - 1) pad0)
    (hpad1 : HalfOf ((ni1 : Int) - np1 + nj1 - 1) pad1) :
    ∃ m', conv2d ord r x w m = .ok m' ∧ r.Gains (fwd2 pad0 pad1 nj0 np0 nj1 np1 k Wf Xf) m m' := by
  have := conv2dCore_acc h.rwf h.xwf h.wwf hcs dr dx dw h.xval h.wval h.inx h.inw h.has h.out
  rw [padOf_eq hpad0, padOf_eq hpad1] at this
  rw [conv2d_core _ _ _ _ _ (by rcases hcs with rfl | ⟨c, rfl⟩ <;> rw [dr] <;> simp)]
  exact this.gains h.inj

/-- `f` applied to each batch. -/
def perBatch [Zero α] (f : (List Nat → α) → List Nat → α) (Xf : List Nat → α) : List Nat → α
  | b :: ix => f (fun jx => Xf (b :: jx)) ix
  | [] => 0

/-- `Convolve2D()(r,x,w)` with batches: every batch of `x` is convolved with `w` into the same batch of `r`, in whatever order
the rounds are run. -/
theorem C169_batches [NonUnitalNonAssocSemiring α] {r x w : SV} {m : Buf α} {Xf Wf : List Nat → α}
    (h : Ready r x w m Xf Wf) {nb ni0 ni1 np0 np1 nj0 nj1 n k c : Nat} {ord : List Nat} (ho : ord.Perm (List.range nb))
    (dr : r.dims = [nb, ni0, ni1, n, c]) (dx : x.dims = [nb, np0, np1, k, c]) (dw : w.dims = [nj0, nj1, n, k])
    {pad0 pad1 : Int} (hpad0 : HalfOf ((ni0 : Int) - np0 + nj0 - 1) pad0)
    (hpad1 : HalfOf ((ni1 : Int) - np1 + nj1 - 1) pad1) :
    ∃ m', conv2d ord r x w m = .ok m' ∧ r.Gains (perBatch (fun Xf => fwd2 pad0 pad1 nj0 np0 nj1 np1 k Wf Xf) Xf) m m' := by
  refine Acc.gains (P := ofOps x w) (Acc.congr (Acc.forM ord (fun m b => do
      let R ← r.slice 0 (b : Int)
      let X ← x.slice 0 (b : Int)
      conv2dCore R X w m)
    (fun b => spread (r.sub b) fun ix => perBatch (fun Xf => fwd2 pad0 pad1 nj0 np0 nj1 np1 k Wf Xf) Xf (b :: ix)) ?_) ?_
    (fun c => (spread_batches r h.rwf dr _ ho c).symm)) h.inj
  · intro b hb
    have hb' : b < nb := List.mem_range.1 (ho.mem_iff.1 hb)
    have := conv2dCore_acc (r := r.sub b) (x := x.sub b) (w := w) (ni0 := ni0) (ni1 := ni1) (np0 := np0) (np1 := np1)
      (n := n) (k := k) (cs := [c]) (P := ofOps x w) (m0 := m) (h.rwf.sub b)
      (h.xwf.sub b) h.wwf (Or.inr ⟨c, rfl⟩) (by simp [SV.sub, dr])
      (by simp [SV.sub, dx]) dw (Holds_sub h.xwf dx hb' h.xval) h.wval (In_sub h.xwf dx hb' h.inx) h.inw
      (Has_sub h.rwf dr hb' h.has) (Out_sub h.rwf dr hb' h.out)
    rw [padOf_eq hpad0, padOf_eq hpad1] at this
    refine Acc.congr this (fun m' _ => ?_) (fun c => rfl)
    rw [r.slice_eq h.rwf dr, Res.ok_bind, x.slice_eq h.xwf dx, Res.ok_bind]
  · intro m' _
    simp [conv2d, dr, dx, dw, Res.get]

/-! ## Views that run through the same entries in another way -/

/-- The entries of `v'` are entries of `v`. -/
def Through (v' v : SV) (φ : List Nat → List Nat) : Prop :=
  ∀ ix, InRange ix v'.dims → InRange (φ ix) v.dims ∧ v'.cell ix = v.cell (φ ix)

theorem Through.holds {v' v : SV} {φ : List Nat → List Nat} (h : Through v' v φ) {m : Buf α} {f : List Nat → α}
    (hv : v.Holds m f) : v'.Holds m (fun ix => f (φ ix)) := by
  intro ix hix
  obtain ⟨h1, h2⟩ := h ix hix
  have := hv _ h1
  rwa [SV.val, ← h2] at this

theorem Through.apart {v' v r : SV} {φ : List Nat → List Nat} (h : Through v' v φ) (ha : r.Apart v) : r.Apart v' := by
  intro ix jx hix hjx
  obtain ⟨h1, h2⟩ := h jx hjx
  rw [h2]
  exact ha ix _ hix h1

theorem Ready.throughW {r x w w' : SV} {m : Buf α} {Xf Wf : List Nat → α} (h : Ready r x w m Xf Wf) (hw : w'.WF)
    {φ : List Nat → List Nat} (ht : Through w' w φ) : Ready r x w' m Xf (fun ix => Wf (φ ix)) :=
  ⟨h.rwf, h.xwf, hw, h.has, h.inj, h.rx, ht.apart h.rw, h.xval, ht.holds h.wval⟩

theorem Ready.throughX {r x w x' : SV} {m : Buf α} {Xf Wf : List Nat → α} (h : Ready r x w m Xf Wf) (hx : x'.WF)
    {φ : List Nat → List Nat} (ht : Through x' x φ) : Ready r x' w m (fun ix => Xf (φ ix)) Wf :=
  ⟨h.rwf, hx, h.wwf, h.has, h.inj, ht.apart h.rx, h.rw, ht.holds h.xval, h.wval⟩

theorem Ready.swap {r x w : SV} {m : Buf α} {Xf Wf : List Nat → α} (h : Ready r x w m Xf Wf) : Ready r w x m Wf Xf :=
  ⟨h.rwf, h.wwf, h.xwf, h.has, h.inj, h.rw, h.rx, h.wval, h.xval⟩

theorem Gains.congr [Add α] {v : SV} {G G' : List Nat → α} {m m' : Buf α} (h : v.Gains G m m')
    (e : ∀ ix, InRange ix v.dims → G ix = G' ix) : v.Gains G' m m' :=
  ⟨fun ix hix a ha => by rw [← e ix hix]; exact h.1 ix hix a ha, h.2⟩

theorem Becomes.congr {v : SV} {G G' : List Nat → α} {m m' : Buf α} (h : v.Becomes G m m')
    (e : ∀ ix, InRange ix v.dims → G ix = G' ix) : v.Becomes G' m m' :=
  ⟨fun ix hix => by rw [← e ix hix]; exact h.1 ix hix, h.2⟩

/-! ## C170: the gradient with respect to the input -/

/-- What the input gradient gains: at `(p,b,c)` the sum of `w(j,a,b) r(i,a,c)` over `a` and over `i+j-pad = p`. -/
def bwdX1 [NonUnitalNonAssocSemiring α] (pad : Int) (nj ni n : Nat) (Wf Rf : List Nat → α) : List Nat → α
  | p :: b :: cx => sumTo nj fun j => sumTo ni fun i =>
      if (i : Int) + j - pad = p then sumTo n fun a => Wf [j, a, b] * Rf (i :: a :: cx) else 0
  | _ => 0

theorem bwdX1_eq [NonUnitalNonAssocSemiring α] (pad : Int) (nj ni n : Nat) (Wf Rf : List Nat → α) (ix : List Nat) :
    fwd1 ((nj : Int) - 1 - pad) nj ni n (fun jx => match jx with | [j, b, a] => Wf [nj - 1 - j, a, b] | _ => 0) Rf ix =
      bwdX1 pad nj ni n Wf Rf ix := by
  match ix with
  | [] => rfl
  | [_] => rfl
  | p :: b :: cx =>
    simp only [fwd1, bwdX1]
    rw [← sumTo_rev]
    refine sumTo_congr fun j hj => sumTo_congr fun i hi => ?_
    have e : ((p : Int) + ((nj - 1 - j : Nat) : Int) - ((nj : Int) - 1 - pad) = i) ↔ ((i : Int) + j - pad = p) := by omega
    rw [show nj - 1 - (nj - 1 - j) = j by omega]
    by_cases h : (i : Int) + j - pad = p
    · rw [if_pos h, if_pos (e.2 h)]
    · rw [if_neg h, if_neg (fun h' => h (e.1 h'))]

theorem rev_through1 {w : SV} (hw : w.WF) {nj n k : Nat} (dw : w.dims = [nj, n, k]) :
    ∃ s0 s1 s2, w.strides = [s0, s1, s2] ∧
      Through ⟨w.off + ((nj : Int) - 1) * s0, [nj, k, n], [-s0, s2, s1]⟩ w
        (fun jx => match jx with | [j, b, a] => [nj - 1 - j, a, b] | _ => []) := by
  obtain ⟨o, d, s⟩ := w
  simp only at dw
  subst dw
  match s, hw with
  | [s0, s1, s2], _ =>
    refine ⟨s0, s1, s2, rfl, ?_⟩
    intro ix hix
    match ix, hix with
    | [j, b, a], hix =>
      simp only [InRange, List.forall₂_cons] at hix
      refine ⟨by simp [InRange]; omega, ?_⟩
      simp only [SV.cell, sdot]
      rw [show ((nj - 1 - j : Nat) : Int) = (nj : Int) - 1 - j by omega]
      ring

/-- `Convolve1D_back0()(r,x,w)`: `x` gains the transpose of the convolution with padding `w.dim(0)-1-half`, where `half` is half
of `x.dim(0)-r.dim(0)+w.dim(0)-1`, rounded towards zero. -/
theorem C171_channels1_partial [NonUnitalNonAssocSemiring α] (ord : List Nat) {r x w : SV} {m : Buf α} {Rf Wf : List Nat → α}
    (h : Ready x r w m Rf Wf) {ni np nj n k : Nat} {cs : List Nat} (hcs : cs = [] ∨ ∃ c, cs = [c])
    (dr : r.dims = ni :: n :: cs) (dx : x.dims = np :: k :: cs) (dw : w.dims = [nj, n, k]) {half : Int}
    (hh : HalfOf ((np : Int) - ni + nj - 1) half) :
    ∃ m', conv1dBack0 ord r x w m = .ok m' ∧ x.Gains (bwdX1 ((nj : Int) - 1 - half) nj ni n Wf Rf) m m' := by
  obtain ⟨s0, s1, s2, hs, ht⟩ := rev_through1 h.wwf dw
  obtain ⟨m', k1, k2⟩ := C167_channels ord (h.throughW (w' := ⟨w.off + ((nj : Int) - 1) * s0, [nj, k, n], [-s0, s2, s1]⟩) rfl ht)
    hcs dx dr rfl hh
  refine ⟨m', ?_, Gains.congr k2 fun ix hix => ?_⟩
  · rw [← k1]
    simp [conv1dBack0, dw, hs, Res.get]
  · rw [← bwdX1_eq, show (nj : Int) - 1 - ((nj : Int) - 1 - half) = half by omega]
    match ix with
    | [] => rfl
    | [_] => rfl
    | p :: b :: cx => rfl

/-- `Convolve1D_back0()(r,x,w)`: when `r.dim(0)-x.dim(0)+w.dim(0)-1` is even, `x` gains the transpose of the convolution
applied to `r`. -/
theorem C170_channels [NonUnitalNonAssocSemiring α] (ord : List Nat) {r x w : SV} {m : Buf α} {Rf Wf : List Nat → α}
    (h : Ready x r w m Rf Wf) {ni np nj n k : Nat} {cs : List Nat} (hcs : cs = [] ∨ ∃ c, cs = [c])
    (dr : r.dims = ni :: n :: cs) (dx : x.dims = np :: k :: cs) (dw : w.dims = [nj, n, k]) {pad : Int}
    (hpad : (ni : Int) - np + nj - 1 = 2 * pad) :
    ∃ m', conv1dBack0 ord r x w m = .ok m' ∧ x.Gains (bwdX1 pad nj ni n Wf Rf) m m' := by
  have := C171_channels1_partial ord h hcs dr dx dw (half := (nj : Int) - 1 - pad) (Or.inl (by omega))
  rwa [show (nj : Int) - 1 - ((nj : Int) - 1 - pad) = pad by omega] at this

/-- The two-axis version. -/
def bwdX2 [NonUnitalNonAssocSemiring α] (pad0 pad1 : Int) (nj0 ni0 nj1 ni1 n : Nat) (Wf Rf : List Nat → α) : List Nat → α
  | p0 :: p1 :: b :: cx => sumTo nj0 fun j0 => sumTo ni0 fun i0 =>
      if (i0 : Int) + j0 - pad0 = p0 then
        sumTo nj1 fun j1 => sumTo ni1 fun i1 =>
          if (i1 : Int) + j1 - pad1 = p1 then sumTo n fun a => Wf [j0, j1, a, b] * Rf (i0 :: i1 :: a :: cx) else 0
      else 0
  | _ => 0

/-- A sum over a window, run through backwards. -/
theorem window_rev [AddCommMonoid α] (pad : Int) (nj ni p : Nat) (F G : Nat → Nat → α)
    (h : ∀ j i, j < nj → i < ni → F (nj - 1 - j) i = G j i) :
    (sumTo nj fun j => sumTo ni fun i => if (p : Int) + j - ((nj : Int) - 1 - pad) = i then F j i else 0) =
      sumTo nj fun j => sumTo ni fun i => if (i : Int) + j - pad = p then G j i else 0 := by
  rw [← sumTo_rev]
  refine sumTo_congr fun j hj => sumTo_congr fun i hi => ?_
  have e : ((p : Int) + ((nj - 1 - j : Nat) : Int) - ((nj : Int) - 1 - pad) = i) ↔ ((i : Int) + j - pad = p) := by omega
  rw [h j i hj hi]
  by_cases hc : (i : Int) + j - pad = p
  · rw [if_pos hc, if_pos (e.2 hc)]
  · rw [if_neg hc, if_neg (fun h' => hc (e.1 h'))]

theorem bwdX2_eq [NonUnitalNonAssocSemiring α] (pad0 pad1 : Int) (nj0 ni0 nj1 ni1 n : Nat) (Wf Rf Wf' : List Nat → α)
    (hW : ∀ j0 j1 b a, j0 < nj0 → j1 < nj1 → Wf' [nj0 - 1 - j0, nj1 - 1 - j1, b, a] = Wf [j0, j1, a, b]) (ix : List Nat) :
    fwd2 ((nj0 : Int) - 1 - pad0) ((nj1 : Int) - 1 - pad1) nj0 ni0 nj1 ni1 n Wf' Rf ix =
      bwdX2 pad0 pad1 nj0 ni0 nj1 ni1 n Wf Rf ix := by
  match ix with
  | [] => rfl
  | [_] => rfl
  | [_, _] => rfl
  | p0 :: p1 :: b :: cx =>
    refine window_rev pad0 nj0 ni0 p0 _ _ fun j0 i0 hj0 _ => window_rev pad1 nj1 ni1 p1 _ _ fun j1 i1 hj1 _ => ?_
    refine sumTo_congr fun a _ => ?_
    rw [hW j0 j1 b a hj0 hj1]

theorem rev_through2 {w : SV} (hw : w.WF) {nj0 nj1 n k : Nat} (dw : w.dims = [nj0, nj1, n, k]) :
    ∃ s0 s1 s2 s3, w.strides = [s0, s1, s2, s3] ∧
      Through ⟨w.off + ((nj0 : Int) - 1) * s0 + ((nj1 : Int) - 1) * s1, [nj0, nj1, k, n], [-s0, -s1, s3, s2]⟩ w
        (fun jx => match jx with | [j0, j1, b, a] => [nj0 - 1 - j0, nj1 - 1 - j1, a, b] | _ => []) := by
  obtain ⟨o, d, s⟩ := w
  simp only at dw
  subst dw
  match s, hw with
  | [s0, s1, s2, s3], _ =>
    refine ⟨s0, s1, s2, s3, rfl, ?_⟩
    intro ix hix
    match ix, hix with
    | [j0, j1, b, a], hix =>
      simp only [InRange, List.forall₂_cons] at hix
      refine ⟨by simp [InRange]; omega, ?_⟩
      simp only [SV.cell, sdot]
      rw [show ((nj0 - 1 - j0 : Nat) : Int) = (nj0 : Int) - 1 - j0 by omega,
        show ((nj1 - 1 - j1 : Nat) : Int) = (nj1 : Int) - 1 - j1 by omega]
      ring

/-- `Convolve2D_back0()(r,x,w)` with a channel axis, or a channel axis and one more. -/
theorem C170_channels2 [NonUnitalNonAssocSemiring α] (ord : List Nat) {r x w : SV} {m : Buf α} {Rf Wf : List Nat → α}
    (h : Ready x r w m Rf Wf) {ni0 ni1 np0 np1 nj0 nj1 n k : Nat} {cs : List Nat} (hcs : cs = [] ∨ ∃ c, cs = [c])
    (dr : r.dims = ni0 :: ni1 :: n :: cs) (dx : x.dims = np0 :: np1 :: k :: cs) (dw : w.dims = [nj0, nj1, n, k])
    {pad0 pad1 : Int} (hpad0 : (ni0 : Int) - np0 + nj0 - 1 = 2 * pad0) (hpad1 : (ni1 : Int) - np1 + nj1 - 1 = 2 * pad1) :
    ∃ m', conv2dBack0 ord r x w m = .ok m' ∧ x.Gains (bwdX2 pad0 pad1 nj0 ni0 nj1 ni1 n Wf Rf) m m' := by
  obtain ⟨s0, s1, s2, s3, hs, ht⟩ := rev_through2 h.wwf dw
  obtain ⟨m', k1, k2⟩ := C169_channels ord (h.throughW (w' := ⟨w.off + ((nj0 : Int) - 1) * s0 + ((nj1 : Int) - 1) * s1,
      [nj0, nj1, k, n], [-s0, -s1, s3, s2]⟩) rfl ht)
    hcs dx dr rfl (pad0 := (nj0 : Int) - 1 - pad0) (pad1 := (nj1 : Int) - 1 - pad1) (Or.inl (by omega)) (Or.inl (by omega))
  refine ⟨m', ?_, Gains.congr k2 fun ix hix => bwdX2_eq _ _ _ _ _ _ _ _ _ _ ?_ ix⟩
  · rw [← k1]
    simp [conv2dBack0, dw, hs, Res.get]
  · intro j0 j1 b a h0 h1
    simp only
    rw [show nj0 - 1 - (nj0 - 1 - j0) = j0 by omega, show nj1 - 1 - (nj1 - 1 - j1) = j1 by omega]

/-- `Convolve2D_back0()(r,x,w)` with batches. -/
theorem C170_batches2 [NonUnitalNonAssocSemiring α] {r x w : SV} {m : Buf α} {Rf Wf : List Nat → α}
    (h : Ready x r w m Rf Wf) {nb ni0 ni1 np0 np1 nj0 nj1 n k c : Nat} {ord : List Nat} (ho : ord.Perm (List.range nb))
    (dr : r.dims = [nb, ni0, ni1, n, c]) (dx : x.dims = [nb, np0, np1, k, c]) (dw : w.dims = [nj0, nj1, n, k])
    {pad0 pad1 : Int} (hpad0 : (ni0 : Int) - np0 + nj0 - 1 = 2 * pad0) (hpad1 : (ni1 : Int) - np1 + nj1 - 1 = 2 * pad1) :
    ∃ m', conv2dBack0 ord r x w m = .ok m' ∧
      x.Gains (perBatch (fun Rf => bwdX2 pad0 pad1 nj0 ni0 nj1 ni1 n Wf Rf) Rf) m m' := by
  obtain ⟨s0, s1, s2, s3, hs, ht⟩ := rev_through2 h.wwf dw
  obtain ⟨m', k1, k2⟩ := C169_batches (h.throughW (w' := ⟨w.off + ((nj0 : Int) - 1) * s0 + ((nj1 : Int) - 1) * s1,
      [nj0, nj1, k, n], [-s0, -s1, s3, s2]⟩) rfl ht)
    ho dx dr rfl (pad0 := (nj0 : Int) - 1 - pad0) (pad1 := (nj1 : Int) - 1 - pad1) (Or.inl (by omega)) (Or.inl (by omega))
  refine ⟨m', ?_, Gains.congr k2 fun ix hix => ?_⟩
  · rw [← k1]
    simp [conv2dBack0, dw, hs, Res.get]
  · match ix with
    | [] => rfl
    | b :: ix =>
      simp only [perBatch]
      refine bwdX2_eq pad0 pad1 nj0 ni0 nj1 ni1 n Wf (fun jx => Rf (b :: jx)) _ ?_ ix
      intro j0 j1 b a h0 h1
      simp only
      rw [show nj0 - 1 - (nj0 - 1 - j0) = j0 by omega, show nj1 - 1 - (nj1 - 1 - j1) = j1 by omega]

/-- The same without channels, as sums of `r(i) w(j)`. -/
def bwdP1 [NonUnitalNonAssocSemiring α] (pad : Int) (nj ni : Nat) (Wf Rf : List Nat → α) : List Nat → α
  | [p] => sumTo nj fun j => sumTo ni fun i => if (i : Int) + j - pad = p then Rf [i] * Wf [j] else 0
  | _ => 0

def bwdP2 [NonUnitalNonAssocSemiring α] (pad0 pad1 : Int) (nj0 ni0 nj1 ni1 : Nat) (Wf Rf : List Nat → α) : List Nat → α
  | [p0, p1] => sumTo nj0 fun j0 => sumTo ni0 fun i0 =>
      if (i0 : Int) + j0 - pad0 = p0 then
        sumTo nj1 fun j1 => sumTo ni1 fun i1 =>
          if (i1 : Int) + j1 - pad1 = p1 then Rf [i0, i1] * Wf [j0, j1] else 0
      else 0
  | _ => 0

/-- `Convolve1D_back0()(r,x,w)` without channels: the gradient is overwritten with the right sum. -/
theorem C172_input1_partial [NonUnitalNonAssocSemiring α] (ord : List Nat) {r x w : SV} {m : Buf α} {Rf Wf : List Nat → α}
    (h : Ready x r w m Rf Wf) {ni np nj : Nat} (dr : r.dims = [ni]) (dx : x.dims = [np]) (dw : w.dims = [nj]) {pad : Int}
    (hpad : (ni : Int) - np + nj - 1 = 2 * pad) :
    ∃ m', conv1dBack0 ord r x w m = .ok m' ∧ x.Becomes (bwdP1 pad nj ni Wf Rf) m m' := by
  have ht : ∃ s0, w.strides = [s0] ∧ Through ⟨w.off + ((nj : Int) - 1) * s0, [nj], [-s0]⟩ w
        (fun jx => match jx with | [j] => [nj - 1 - j] | _ => []) := by
    have hw := h.wwf
    clear h
    obtain ⟨o, d, s⟩ := w
    simp only at dw
    subst dw
    match s, hw with
    | [s0], _ =>
      refine ⟨s0, rfl, ?_⟩
      intro ix hix
      match ix, hix with
      | [j], hix =>
        simp only [InRange, List.forall₂_cons] at hix
        refine ⟨by simp [InRange]; omega, ?_⟩
        simp only [SV.cell, sdot]
        rw [show ((nj - 1 - j : Nat) : Int) = (nj : Int) - 1 - j by omega]
        ring
  obtain ⟨s0, hs, ht⟩ := ht
  obtain ⟨m', k1, k2⟩ := C167_plain ord (h.throughW (w' := ⟨w.off + ((nj : Int) - 1) * s0, [nj], [-s0]⟩) rfl ht)
    dx dr rfl (pad := (nj : Int) - 1 - pad) (Or.inl (by omega))
  refine ⟨m', ?_, Becomes.congr k2 fun ix hix => ?_⟩
  · rw [← k1]
    simp [conv1dBack0, dw, hs, Res.get]
  · match ix with
    | [] => rfl
    | _ :: _ :: _ => rfl
    | [p] =>
      refine window_rev pad nj ni p _ _ fun j i hj _ => ?_
      simp only
      rw [show nj - 1 - (nj - 1 - j) = j by omega]

/-- `Convolve2D_back0()(r,x,w)` without channels. -/
theorem C172_input2_partial [NonUnitalNonAssocSemiring α] (ord : List Nat) {r x w : SV} {m : Buf α} {Rf Wf : List Nat → α}
    (h : Ready x r w m Rf Wf) {ni0 ni1 np0 np1 nj0 nj1 : Nat} (dr : r.dims = [ni0, ni1]) (dx : x.dims = [np0, np1])
    (dw : w.dims = [nj0, nj1]) {pad0 pad1 : Int}
    (hpad0 : (ni0 : Int) - np0 + nj0 - 1 = 2 * pad0) (hpad1 : (ni1 : Int) - np1 + nj1 - 1 = 2 * pad1) :
    ∃ m', conv2dBack0 ord r x w m = .ok m' ∧ x.Becomes (bwdP2 pad0 pad1 nj0 ni0 nj1 ni1 Wf Rf) m m' := by
  have ht : ∃ s0 s1, w.strides = [s0, s1] ∧
      Through ⟨w.off + ((nj0 : Int) - 1) * s0 + ((nj1 : Int) - 1) * s1, [nj0, nj1], [-s0, -s1]⟩ w
        (fun jx => match jx with | [j0, j1] => [nj0 - 1 - j0, nj1 - 1 - j1] | _ => []) := by
    have hw := h.wwf
    clear h
    obtain ⟨o, d, s⟩ := w
    simp only at dw
    subst dw
    match s, hw with
    | [s0, s1], _ =>
      refine ⟨s0, s1, rfl, ?_⟩
      intro ix hix
      match ix, hix with
      | [j0, j1], hix =>
        simp only [InRange, List.forall₂_cons] at hix
        refine ⟨by simp [InRange]; omega, ?_⟩
        simp only [SV.cell, sdot]
        rw [show ((nj0 - 1 - j0 : Nat) : Int) = (nj0 : Int) - 1 - j0 by omega,
          show ((nj1 - 1 - j1 : Nat) : Int) = (nj1 : Int) - 1 - j1 by omega]
        ring
  obtain ⟨s0, s1, hs, ht⟩ := ht
  obtain ⟨m', k1, k2⟩ := C169_plain ord (h.throughW (w' := ⟨w.off + ((nj0 : Int) - 1) * s0 + ((nj1 : Int) - 1) * s1,
      [nj0, nj1], [-s0, -s1]⟩) rfl ht)
    dx dr rfl (pad0 := (nj0 : Int) - 1 - pad0) (pad1 := (nj1 : Int) - 1 - pad1) (Or.inl (by omega)) (Or.inl (by omega))
  refine ⟨m', ?_, Becomes.congr k2 fun ix hix => ?_⟩
  · rw [← k1]
    simp [conv2dBack0, dw, hs, Res.get]
  · match ix with
    | [] => rfl
    | [_] => rfl
    | _ :: _ :: _ :: _ => rfl
    | [p0, p1] =>
      refine window_rev pad0 nj0 ni0 p0 _ _ fun j0 i0 hj0 _ => window_rev pad1 nj1 ni1 p1 _ _ fun j1 i1 hj1 _ => ?_
      simp only
      rw [show nj0 - 1 - (nj0 - 1 - j0) = j0 by omega, show nj1 - 1 - (nj1 - 1 - j1) = j1 by omega]

/-! ## C173: the gradient with respect to the filter -/

/-- What the filter gradient gains: at `(j,a,b)` the sum of `r(i,a,c) x(p,b,c)` over `c` and over `i+j-pad = p`. -/
def bwdW1 [NonUnitalNonAssocSemiring α] (pad : Int) (ni np : Nat) (cs : List Nat) (Rf Xf : List Nat → α) : List Nat → α
  | [j, a, b] => sumTo ni fun i => sumTo np fun p =>
      if (i : Int) + j - pad = p then ((allIndices cs).map fun cx => Rf (i :: a :: cx) * Xf (p :: b :: cx)).sum else 0
  | _ => 0

def bwdW2 [NonUnitalNonAssocSemiring α] (pad0 pad1 : Int) (ni0 np0 ni1 np1 : Nat) (cs : List Nat) (Rf Xf : List Nat → α) :
    List Nat → α
  | [j0, j1, a, b] => sumTo ni0 fun i0 => sumTo np0 fun p0 =>
      if (i0 : Int) + j0 - pad0 = p0 then
        sumTo ni1 fun i1 => sumTo np1 fun p1 =>
          if (i1 : Int) + j1 - pad1 = p1 then
            ((allIndices cs).map fun cx => Rf (i0 :: i1 :: a :: cx) * Xf (p0 :: p1 :: b :: cx)).sum
          else 0
      else 0
  | _ => 0

theorem sum_one [AddCommMonoid α] (c : Nat) (F : List Nat → α) :
    ((allIndices [c]).map F).sum = sumTo c fun i => F [i] := by
  unfold allIndices sumTo
  rw [sum_flatMap']
  refine congrArg List.sum (List.map_congr_left fun i _ => ?_)
  simp [allIndices]

theorem sum_none [AddCommMonoid α] (F : List Nat → α) : ((allIndices []).map F).sum = sumTo 1 fun _ => F [] := by
  simp [allIndices, sumTo]

theorem window_congr [AddCommMonoid α] {pad : Int} {ni np j : Nat} {F G : Nat → Nat → α}
    (h : ∀ i p, i < ni → p < np → F i p = G i p) :
    (sumTo ni fun i => sumTo np fun p => if (j : Int) + i - pad = p then F i p else 0) =
      sumTo ni fun i => sumTo np fun p => if (i : Int) + j - pad = p then G i p else 0 := by
  refine sumTo_congr fun i hi => sumTo_congr fun p hp => ?_
  rw [h i p hi hp, Int.add_comm]

/-- `Convolve1D_back1` on one batch, as an accumulation into `w`. -/
theorem conv1dBack1Core_acc [NonUnitalNonAssocSemiring α] {r x w : SV} (hr : r.WF) (hx : x.WF) (hw : w.WF)
    {ni np nj n k : Nat} {cs : List Nat} (hcs : cs = [] ∨ ∃ c, cs = [c])
    (dr : r.dims = ni :: n :: cs) (dx : x.dims = np :: k :: cs) (dw : w.dims = [nj, n, k]) {P : Nat → Prop} {m0 : Buf α}
    {Xf Rf : List Nat → α} (vx : x.Holds m0 Xf) (vr : r.Holds m0 Rf) (ix : In P x) (ir : In P r) (aw : w.Has m0)
    (ow : Out P w) :
    Acc P m0 (conv1dBack1Core r x w) (spread w (bwdW1 (padOf ni np nj) ni np cs Rf Xf)) := by
  have hpad : padOf nj np ni = padOf ni np nj := by
    unfold padOf; congr 1; omega
  obtain ⟨ro, rd', rs⟩ := r
  obtain ⟨xo, xd, xs⟩ := x
  simp only at dr dx
  subst dr dx
  rcases hcs with rfl | ⟨c, rfl⟩
  · match rs, hr, xs, hx with
    | [r0, r1], _, [x0, x1], _ =>
      have tx : Through ⟨xo, [np, 1, k], [x0, x0, x1]⟩ ⟨xo, [np, k], [x0, x1]⟩
          (fun jx => match jx with | [p, _, b] => [p, b] | _ => []) := by
        intro ix hix
        match ix, hix with
        | [p, e, b], hix =>
          simp only [InRange, List.forall₂_cons] at hix
          obtain rfl : e = 0 := by omega
          refine ⟨by simp [InRange]; omega, ?_⟩
          simp only [SV.cell, sdot]; simp
      have tr : Through ⟨ro, [ni, n, 1], [r0, r1, r1]⟩ ⟨ro, [ni, n], [r0, r1]⟩
          (fun jx => match jx with | [i, a, _] => [i, a] | _ => []) := by
        intro ix hix
        match ix, hix with
        | [i, a, e], hix =>
          simp only [InRange, List.forall₂_cons] at hix
          obtain rfl : e = 0 := by omega
          refine ⟨by simp [InRange]; omega, ?_⟩
          simp only [SV.cell, sdot]; simp
      refine Acc.congr (conv1dCore_acc (cs := [k]) hw (x := ⟨xo, [np, 1, k], [x0, x0, x1]⟩) (w := ⟨ro, [ni, n, 1], [r0, r1, r1]⟩)
        rfl rfl (Or.inr ⟨k, rfl⟩) dw rfl rfl (tx.holds vx) (tr.holds vr) (fun ix' h => ?_) (fun ix' h => ?_) aw ow)
        (fun m _ => ?_) (fun cc => spread_congr w ?_ cc)
      · rw [(tx ix' h).2]; exact ix _ (tx ix' h).1
      · rw [(tr ix' h).2]; exact ir _ (tr ix' h).1
      · have hd : w.dims.length ≠ 5 := by rw [dw]; simp
        simp [conv1dBack1Core, dw, SV.unsqueeze, Res.get, gvInsert, conv1d_core _ _ _ _ _ hd]
      · intro jx hjx
        rw [dw] at hjx
        match jx, hjx with
        | [j, a, b], _ =>
          refine Eq.symm ?_
          rw [hpad]
          refine window_congr fun i p _ _ => ?_
          exact (sum_none fun cx => Rf (i :: a :: cx) * Xf (p :: b :: cx)).symm
  · match rs, hr, xs, hx with
    | [r0, r1, r2], _, [x0, x1, x2], _ =>
      have tx : Through ⟨xo, [np, c, k], [x0, x2, x1]⟩ ⟨xo, [np, k, c], [x0, x1, x2]⟩
          (fun jx => match jx with | [p, e, b] => [p, b, e] | _ => []) := by
        intro ix hix
        match ix, hix with
        | [p, e, b], hix =>
          simp only [InRange, List.forall₂_cons] at hix
          refine ⟨by simp [InRange]; omega, ?_⟩
          simp only [SV.cell, sdot]; ring
      refine Acc.congr (conv1dCore_acc (cs := [k]) hw (x := ⟨xo, [np, c, k], [x0, x2, x1]⟩)
        (w := ⟨ro, [ni, n, c], [r0, r1, r2]⟩)
        rfl rfl (Or.inr ⟨k, rfl⟩) dw rfl rfl (tx.holds vx) vr (fun ix' h => ?_) ir aw ow)
        (fun m _ => ?_) (fun cc => spread_congr w ?_ cc)
      · rw [(tx ix' h).2]; exact ix _ (tx ix' h).1
      · have hd : w.dims.length ≠ 5 := by rw [dw]; simp
        simp [conv1dBack1Core, dw, SV.transpAB, Res.get, gvSet, conv1d_core _ _ _ _ _ hd]
      · intro jx hjx
        rw [dw] at hjx
        match jx, hjx with
        | [j, a, b], _ =>
          refine Eq.symm ?_
          rw [hpad]
          refine window_congr fun i p _ _ => ?_
          exact (sum_one c fun cx => Rf (i :: a :: cx) * Xf (p :: b :: cx)).symm

/-- `Convolve1D_back1()(r,x,w)` with a channel axis, or a channel axis and one more axis. -/
theorem C173_channels1 [NonUnitalNonAssocSemiring α] (ord : List Nat) {r x w : SV} {m : Buf α} {Rf Xf : List Nat → α}
    (h : Ready w x r m Xf Rf) {ni np nj n k : Nat} {cs : List Nat} (hcs : cs = [] ∨ ∃ c, cs = [c])
    (dr : r.dims = ni :: n :: cs) (dx : x.dims = np :: k :: cs) (dw : w.dims = [nj, n, k]) {pad : Int}
    (hpad : HalfOf ((ni : Int) - np + nj - 1) pad) :
    ∃ m', conv1dBack1 ord r x w m = .ok m' ∧ w.Gains (bwdW1 pad ni np cs Rf Xf) m m' := by
  have := conv1dBack1Core_acc h.wwf h.xwf h.rwf hcs dr dx dw h.xval h.wval h.inx h.inw h.has h.out
  rw [padOf_eq hpad] at this
  have e : conv1dBack1 ord r x w m = conv1dBack1Core r x w m := by
    unfold conv1dBack1
    rw [if_neg (by rcases hcs with rfl | ⟨c, rfl⟩ <;> rw [dr] <;> simp)]
  rw [e]
  exact this.gains h.inj

/-- `Convolve1D_back1()(r,x,w)` with batches: the sum over the batches, if the rounds run one at a time. -/
theorem C173_batches1 [NonUnitalNonAssocSemiring α] {r x w : SV} {m : Buf α} {Rf Xf : List Nat → α}
    (h : Ready w x r m Xf Rf) {nb ni np nj n k c : Nat} {ord : List Nat} (ho : ord.Perm (List.range nb))
    (dr : r.dims = [nb, ni, n, c]) (dx : x.dims = [nb, np, k, c]) (dw : w.dims = [nj, n, k]) {pad : Int}
    (hpad : HalfOf ((ni : Int) - np + nj - 1) pad) :
    ∃ m', conv1dBack1 ord r x w m = .ok m' ∧
      w.Gains (fun jx => sumTo nb fun b => bwdW1 pad ni np [c] (fun ix => Rf (b :: ix)) (fun ix => Xf (b :: ix)) jx) m m' := by
  refine Acc.gains (P := ofOps x r) (Acc.congr (Acc.forM ord (fun m b => do
      let R ← r.slice 0 (b : Int)
      let X ← x.slice 0 (b : Int)
      conv1dBack1Core R X w m)
    (fun b => spread w fun jx => bwdW1 pad ni np [c] (fun ix => Rf (b :: ix)) (fun ix => Xf (b :: ix)) jx) ?_) ?_ ?_) h.inj
  · intro b hb
    have hb' : b < nb := List.mem_range.1 (ho.mem_iff.1 hb)
    have := conv1dBack1Core_acc (r := r.sub b) (x := x.sub b) (w := w) (ni := ni) (np := np) (n := n) (k := k) (cs := [c])
      (P := ofOps x r) (m0 := m) (h.wwf.sub b) (h.xwf.sub b) h.rwf (Or.inr ⟨c, rfl⟩) (by simp [SV.sub, dr])
      (by simp [SV.sub, dx]) dw (Holds_sub h.xwf dx hb' h.xval) (Holds_sub h.wwf dr hb' h.wval)
      (In_sub h.xwf dx hb' h.inx) (In_sub h.wwf dr hb' h.inw) h.has h.out
    rw [padOf_eq hpad] at this
    refine Acc.congr this (fun m' _ => ?_) (fun c => rfl)
    rw [r.slice_eq h.wwf dr, Res.ok_bind, x.slice_eq h.xwf dx, Res.ok_bind]
  · intro m' _
    simp [conv1dBack1, dr, dx, dw, Res.get]
  · intro cc
    rw [(ho.map _).sum_eq]
    exact (spread_sum w _ _ _).symm

/-- `Convolve2D_back1` on one batch, as an accumulation into `w`. -/
theorem conv2dBack1Core_acc [NonUnitalNonAssocSemiring α] {r x w : SV} (hr : r.WF) (hx : x.WF) (hw : w.WF)
    {ni0 ni1 np0 np1 nj0 nj1 n k : Nat} {cs : List Nat} (hcs : cs = [] ∨ ∃ c, cs = [c])
    (dr : r.dims = ni0 :: ni1 :: n :: cs) (dx : x.dims = np0 :: np1 :: k :: cs) (dw : w.dims = [nj0, nj1, n, k])
    {P : Nat → Prop} {m0 : Buf α}
    {Xf Rf : List Nat → α} (vx : x.Holds m0 Xf) (vr : r.Holds m0 Rf) (ix : In P x) (ir : In P r) (aw : w.Has m0)
    (ow : Out P w) :
    Acc P m0 (conv2dBack1Core r x w)
      (spread w (bwdW2 (padOf ni0 np0 nj0) (padOf ni1 np1 nj1) ni0 np0 ni1 np1 cs Rf Xf)) := by
  have hpad0 : padOf nj0 np0 ni0 = padOf ni0 np0 nj0 := by
    unfold padOf; congr 1; omega
  have hpad1 : padOf nj1 np1 ni1 = padOf ni1 np1 nj1 := by
    unfold padOf; congr 1; omega
  obtain ⟨ro, rd', rs⟩ := r
  obtain ⟨xo, xd, xs⟩ := x
  simp only at dr dx
  subst dr dx
  rcases hcs with rfl | ⟨c, rfl⟩
  · match rs, hr, xs, hx with
    | [r0, r1, r2], _, [x0, x1, x2], _ =>
      have tx : Through ⟨xo, [np0, np1, 1, k], [x0, x1, x1, x2]⟩ ⟨xo, [np0, np1, k], [x0, x1, x2]⟩
          (fun jx => match jx with | [p0, p1, _, b] => [p0, p1, b] | _ => []) := by
        intro ix hix
        match ix, hix with
        | [p0, p1, e, b], hix =>
          simp only [InRange, List.forall₂_cons] at hix
          obtain rfl : e = 0 := by omega
          refine ⟨by simp [InRange]; omega, ?_⟩
          simp only [SV.cell, sdot]; simp
      have tr : Through ⟨ro, [ni0, ni1, n, 1], [r0, r1, r2, r2]⟩ ⟨ro, [ni0, ni1, n], [r0, r1, r2]⟩
          (fun jx => match jx with | [i0, i1, a, _] => [i0, i1, a] | _ => []) := by
        intro ix hix
        match ix, hix with
        | [i0, i1, a, e], hix =>
          simp only [InRange, List.forall₂_cons] at hix
          obtain rfl : e = 0 := by omega
          refine ⟨by simp [InRange]; omega, ?_⟩
          simp only [SV.cell, sdot]; simp
      refine Acc.congr (conv2dCore_acc (cs := [k]) hw (x := ⟨xo, [np0, np1, 1, k], [x0, x1, x1, x2]⟩)
        (w := ⟨ro, [ni0, ni1, n, 1], [r0, r1, r2, r2]⟩)
        rfl rfl (Or.inr ⟨k, rfl⟩) dw rfl rfl (tx.holds vx) (tr.holds vr) (fun ix' h => ?_) (fun ix' h => ?_) aw ow)
        (fun m _ => ?_) (fun cc => spread_congr w ?_ cc)
      · rw [(tx ix' h).2]; exact ix _ (tx ix' h).1
      · rw [(tr ix' h).2]; exact ir _ (tr ix' h).1
      · have hd : w.dims.length ≠ 5 := by rw [dw]; simp
        simp [conv2dBack1Core, dw, SV.unsqueeze, Res.get, gvInsert, conv2d_core _ _ _ _ _ hd]
      · intro jx hjx
        rw [dw] at hjx
        match jx, hjx with
        | [j0, j1, a, b], _ =>
          refine Eq.symm ?_
          rw [hpad0, hpad1]
          refine window_congr fun i0 p0 _ _ => window_congr fun i1 p1 _ _ => ?_
          exact (sum_none fun cx => Rf (i0 :: i1 :: a :: cx) * Xf (p0 :: p1 :: b :: cx)).symm
  · match rs, hr, xs, hx with
    | [r0, r1, r2, r3], _, [x0, x1, x2, x3], _ =>
      have tx : Through ⟨xo, [np0, np1, c, k], [x0, x1, x3, x2]⟩ ⟨xo, [np0, np1, k, c], [x0, x1, x2, x3]⟩
          (fun jx => match jx with | [p0, p1, e, b] => [p0, p1, b, e] | _ => []) := by
        intro ix hix
        match ix, hix with
        | [p0, p1, e, b], hix =>
          simp only [InRange, List.forall₂_cons] at hix
          refine ⟨by simp [InRange]; omega, ?_⟩
          simp only [SV.cell, sdot]; ring
      refine Acc.congr (conv2dCore_acc (cs := [k]) hw (x := ⟨xo, [np0, np1, c, k], [x0, x1, x3, x2]⟩)
        (w := ⟨ro, [ni0, ni1, n, c], [r0, r1, r2, r3]⟩)
        rfl rfl (Or.inr ⟨k, rfl⟩) dw rfl rfl (tx.holds vx) vr (fun ix' h => ?_) ir aw ow)
        (fun m _ => ?_) (fun cc => spread_congr w ?_ cc)
      · rw [(tx ix' h).2]; exact ix _ (tx ix' h).1
      · have hd : w.dims.length ≠ 5 := by rw [dw]; simp
        simp [conv2dBack1Core, dw, SV.transpAB, Res.get, gvSet, conv2d_core _ _ _ _ _ hd]
      · intro jx hjx
        rw [dw] at hjx
        match jx, hjx with
        | [j0, j1, a, b], _ =>
          refine Eq.symm ?_
          rw [hpad0, hpad1]
          refine window_congr fun i0 p0 _ _ => window_congr fun i1 p1 _ _ => ?_
          exact (sum_one c fun cx => Rf (i0 :: i1 :: a :: cx) * Xf (p0 :: p1 :: b :: cx)).symm

/-- `Convolve2D_back1()(r,x,w)` with a channel axis, or a channel axis and one more axis. -/
theorem C173_channels2 [NonUnitalNonAssocSemiring α] (ord : List Nat) {r x w : SV} {m : Buf α} {Rf Xf : List Nat → α}
    (h : Ready w x r m Xf Rf) {ni0 ni1 np0 np1 nj0 nj1 n k : Nat} {cs : List Nat} (hcs : cs = [] ∨ ∃ c, cs = [c])
    (dr : r.dims = ni0 :: ni1 :: n :: cs) (dx : x.dims = np0 :: np1 :: k :: cs) (dw : w.dims = [nj0, nj1, n, k])
    {pad0 pad1 : Int} (hpad0 : HalfOf ((ni0 : Int) - np0 + nj0 - 1) pad0)
    (hpad1 : HalfOf ((ni1 : Int) - np1 + nj1 - 1) pad1) :
    ∃ m', conv2dBack1 ord r x w m = .ok m' ∧ w.Gains (bwdW2 pad0 pad1 ni0 np0 ni1 np1 cs Rf Xf) m m' := by
  have := conv2dBack1Core_acc h.wwf h.xwf h.rwf hcs dr dx dw h.xval h.wval h.inx h.inw h.has h.out
  rw [padOf_eq hpad0, padOf_eq hpad1] at this
  have e : conv2dBack1 ord r x w m = conv2dBack1Core r x w m := by
    unfold conv2dBack1
    rw [if_neg (by rcases hcs with rfl | ⟨c, rfl⟩ <;> rw [dr] <;> simp)]
  rw [e]
  exact this.gains h.inj

/-- `Convolve2D_back1()(r,x,w)` with batches: the sum over the batches, if the rounds run one at a time. -/
theorem C173_batches2 [NonUnitalNonAssocSemiring α] {r x w : SV} {m : Buf α} {Rf Xf : List Nat → α}
    (h : Ready w x r m Xf Rf) {nb ni0 ni1 np0 np1 nj0 nj1 n k c : Nat} {ord : List Nat} (ho : ord.Perm (List.range nb))
    (dr : r.dims = [nb, ni0, ni1, n, c]) (dx : x.dims = [nb, np0, np1, k, c]) (dw : w.dims = [nj0, nj1, n, k])
    {pad0 pad1 : Int} (hpad0 : HalfOf ((ni0 : Int) - np0 + nj0 - 1) pad0)
    (hpad1 : HalfOf ((ni1 : Int) - np1 + nj1 - 1) pad1) :
    ∃ m', conv2dBack1 ord r x w m = .ok m' ∧
      w.Gains (fun jx => sumTo nb fun b =>
        bwdW2 pad0 pad1 ni0 np0 ni1 np1 [c] (fun ix => Rf (b :: ix)) (fun ix => Xf (b :: ix)) jx) m m' := by
  refine Acc.gains (P := ofOps x r) (Acc.congr (Acc.forM ord (fun m b => do
      let R ← r.slice 0 (b : Int)
      let X ← x.slice 0 (b : Int)
      conv2dBack1Core R X w m)
    (fun b => spread w fun jx =>
      bwdW2 pad0 pad1 ni0 np0 ni1 np1 [c] (fun ix => Rf (b :: ix)) (fun ix => Xf (b :: ix)) jx) ?_) ?_ ?_) h.inj
  · intro b hb
    have hb' : b < nb := List.mem_range.1 (ho.mem_iff.1 hb)
    have := conv2dBack1Core_acc (r := r.sub b) (x := x.sub b) (w := w) (ni0 := ni0) (np0 := np0) (ni1 := ni1) (np1 := np1)
      (n := n) (k := k) (cs := [c])
      (P := ofOps x r) (m0 := m) (h.wwf.sub b) (h.xwf.sub b) h.rwf (Or.inr ⟨c, rfl⟩) (by simp [SV.sub, dr])
      (by simp [SV.sub, dx]) dw (Holds_sub h.xwf dx hb' h.xval) (Holds_sub h.wwf dr hb' h.wval)
      (In_sub h.xwf dx hb' h.inx) (In_sub h.wwf dr hb' h.inw) h.has h.out
    rw [padOf_eq hpad0, padOf_eq hpad1] at this
    refine Acc.congr this (fun m' _ => ?_) (fun c => rfl)
    rw [r.slice_eq h.wwf dr, Res.ok_bind, x.slice_eq h.xwf dx, Res.ok_bind]
  · intro m' _
    simp [conv2dBack1, dr, dx, dw, Res.get]
  · intro cc
    rw [(ho.map _).sum_eq]
    exact (spread_sum w _ _ _).symm

/-- Without channels: the sum of `x(p) r(i)` over `i+j-pad = p`. -/
def bwdQ1 [NonUnitalNonAssocSemiring α] (pad : Int) (ni np : Nat) (Rf Xf : List Nat → α) : List Nat → α
  | [j] => sumTo ni fun i => sumTo np fun p => if (i : Int) + j - pad = p then Xf [p] * Rf [i] else 0
  | _ => 0

def bwdQ2 [NonUnitalNonAssocSemiring α] (pad0 pad1 : Int) (ni0 np0 ni1 np1 : Nat) (Rf Xf : List Nat → α) : List Nat → α
  | [j0, j1] => sumTo ni0 fun i0 => sumTo np0 fun p0 =>
      if (i0 : Int) + j0 - pad0 = p0 then
        sumTo ni1 fun i1 => sumTo np1 fun p1 => if (i1 : Int) + j1 - pad1 = p1 then Xf [p0, p1] * Rf [i0, i1] else 0
      else 0
  | _ => 0

/-- `Convolve1D_back1()(r,x,w)` without channels: the gradient is overwritten with the right sum. -/
theorem C172_filter1_partial [NonUnitalNonAssocSemiring α] (ord : List Nat) {r x w : SV} {m : Buf α} {Rf Xf : List Nat → α}
    (h : Ready w x r m Xf Rf) {ni np nj : Nat} (dr : r.dims = [ni]) (dx : x.dims = [np]) (dw : w.dims = [nj]) {pad : Int}
    (hpad : HalfOf ((ni : Int) - np + nj - 1) pad) :
    ∃ m', conv1dBack1 ord r x w m = .ok m' ∧ w.Becomes (bwdQ1 pad ni np Rf Xf) m m' := by
  obtain ⟨m', k1, k2⟩ := C167_plain [] h dw dx dr (pad := pad) (by
    rwa [show ((nj : Int) - np + ni - 1) = (ni : Int) - np + nj - 1 by omega])
  refine ⟨m', ?_, Becomes.congr k2 fun ix hix => ?_⟩
  · rw [← k1]
    simp [conv1dBack1, conv1dBack1Core, dr, dx]
  · rw [dw] at hix
    match ix, hix with
    | [j], _ => exact window_congr fun i p _ _ => rfl

/-- `Convolve2D_back1()(r,x,w)` without channels. -/
theorem C172_filter2_partial [NonUnitalNonAssocSemiring α] (ord : List Nat) {r x w : SV} {m : Buf α} {Rf Xf : List Nat → α}
    (h : Ready w x r m Xf Rf) {ni0 ni1 np0 np1 nj0 nj1 : Nat} (dr : r.dims = [ni0, ni1]) (dx : x.dims = [np0, np1])
    (dw : w.dims = [nj0, nj1]) {pad0 pad1 : Int} (hpad0 : HalfOf ((ni0 : Int) - np0 + nj0 - 1) pad0)
    (hpad1 : HalfOf ((ni1 : Int) - np1 + nj1 - 1) pad1) :
    ∃ m', conv2dBack1 ord r x w m = .ok m' ∧ w.Becomes (bwdQ2 pad0 pad1 ni0 np0 ni1 np1 Rf Xf) m m' := by
  obtain ⟨m', k1, k2⟩ := C169_plain [] h dw dx dr (pad0 := pad0) (pad1 := pad1) (by
    rwa [show ((nj0 : Int) - np0 + ni0 - 1) = (ni0 : Int) - np0 + nj0 - 1 by omega]) (by
    rwa [show ((nj1 : Int) - np1 + ni1 - 1) = (ni1 : Int) - np1 + nj1 - 1 by omega])
  refine ⟨m', ?_, Becomes.congr k2 fun ix hix => ?_⟩
  · rw [← k1]
    simp [conv2dBack1, conv2dBack1Core, dr, dx]
  · rw [dw] at hix
    match ix, hix with
    | [j0, j1], _ => exact window_congr fun i0 p0 _ _ => window_congr fun i1 p1 _ _ => rfl

/-! ## The three sums are transposes of each other -/

/-- A finite sum over a list. -/
theorem ite_sum [AddCommMonoid α] {ι : Type} (l : List ι) (c : Prop) [Decidable c] (F : ι → α) :
    (l.map fun a => if c then F a else 0).sum = if c then (l.map F).sum else 0 := by
  by_cases h : c
  · simp [h]
  · simp [h, sum_map_zero']

theorem sum_mul' [NonUnitalNonAssocSemiring α] {ι : Type} (l : List ι) (F : ι → α) (a : α) :
    (l.map F).sum * a = (l.map fun i => F i * a).sum := by
  induction l with
  | nil => simp
  | cons i l ih => simp [add_mul, ih]

theorem pull [AddCommMonoid α] {ι : Type} (l : List ι) (nj np : Nat) (c : Nat → Nat → Prop) [∀ j p, Decidable (c j p)]
    (G : ι → Nat → Nat → α) :
    (l.map fun a => sumTo nj fun j => sumTo np fun p => if c j p then G a j p else 0).sum =
      sumTo nj fun j => sumTo np fun p => if c j p then (l.map fun a => G a j p).sum else 0 := by
  unfold sumTo
  rw [sum_comm']
  refine congrArg List.sum (List.map_congr_left fun j _ => ?_)
  rw [sum_comm']
  refine congrArg List.sum (List.map_congr_left fun p _ => ?_)
  exact ite_sum l _ _

/-- The full sum: over all positions with `i+j-pad = p`, of `F i j p`. -/
def triples [AddCommMonoid α] (pad : Int) (ni nj np : Nat) (F : Nat → Nat → Nat → α) : α :=
  sumTo ni fun i => sumTo nj fun j => sumTo np fun p => if (i : Int) + j - pad = p then F i j p else 0

theorem triples_p [AddCommMonoid α] (pad : Int) (ni nj np : Nat) (F : Nat → Nat → Nat → α) :
    (sumTo np fun p => sumTo nj fun j => sumTo ni fun i => if (i : Int) + j - pad = p then F i j p else 0) =
      triples pad ni nj np F := by
  unfold triples
  rw [sumTo_congr fun p _ => sumTo_comm nj ni _, sumTo_comm]
  exact sumTo_congr fun i _ => sumTo_comm _ _ _

theorem triples_j [AddCommMonoid α] (pad : Int) (ni nj np : Nat) (F : Nat → Nat → Nat → α) :
    (sumTo nj fun j => sumTo ni fun i => sumTo np fun p => if (i : Int) + j - pad = p then F i j p else 0) =
      triples pad ni nj np F := sumTo_comm _ _ _

theorem triples_congr [AddCommMonoid α] {pad : Int} {ni nj np : Nat} {F G : Nat → Nat → Nat → α}
    (h : ∀ i j p, F i j p = G i j p) : triples pad ni nj np F = triples pad ni nj np G := by
  have : F = G := funext fun i => funext fun j => funext fun p => h i j p
  rw [this]

/-- `⟨w * x, r⟩ = ⟨x, backX(r)⟩`: what `Convolve1D_back0` adds is the transpose of what `Convolve1D` adds. -/
theorem C170_transpose [CommSemiring α] (pad : Int) (ni np nj n k : Nat) (cs : List Nat) (Wf Xf Rf : List Nat → α) :
    (sumTo ni fun i => sumTo n fun a => ((allIndices cs).map fun cx =>
        fwd1 pad nj np k Wf Xf (i :: a :: cx) * Rf (i :: a :: cx)).sum) =
      sumTo np fun p => sumTo k fun b => ((allIndices cs).map fun cx =>
        bwdX1 pad nj ni n Wf Rf (p :: b :: cx) * Xf (p :: b :: cx)).sum := by
  have e1 : (sumTo ni fun i => sumTo n fun a => ((allIndices cs).map fun cx =>
        fwd1 pad nj np k Wf Xf (i :: a :: cx) * Rf (i :: a :: cx)).sum) =
      triples pad ni nj np fun i j p => sumTo n fun a => ((allIndices cs).map fun cx => sumTo k fun b =>
        Wf [j, a, b] * Xf (p :: b :: cx) * Rf (i :: a :: cx)).sum := by
    unfold triples
    refine sumTo_congr fun i _ => ?_
    simp only [fwd1, sumTo_mul, ite_mul, zero_mul]
    refine Eq.trans (sumTo_congr fun a _ => pull (allIndices cs) nj np (fun j p => (i : Int) + j - pad = p) _) ?_
    exact pull (List.range n) nj np (fun j p => (i : Int) + j - pad = p) _
  have e2 : (sumTo np fun p => sumTo k fun b => ((allIndices cs).map fun cx =>
        bwdX1 pad nj ni n Wf Rf (p :: b :: cx) * Xf (p :: b :: cx)).sum) =
      triples pad ni nj np fun i j p => sumTo k fun b => ((allIndices cs).map fun cx => sumTo n fun a =>
        Wf [j, a, b] * Rf (i :: a :: cx) * Xf (p :: b :: cx)).sum := by
    rw [← triples_p]
    refine sumTo_congr fun p _ => ?_
    simp only [bwdX1, sumTo_mul, ite_mul, zero_mul]
    refine Eq.trans (sumTo_congr fun a _ => pull (allIndices cs) nj ni (fun j i => (i : Int) + j - pad = p) _) ?_
    exact pull (List.range k) nj ni (fun j i => (i : Int) + j - pad = p) _
  rw [e1, e2]
  refine triples_congr fun i j p => ?_
  unfold sumTo
  rw [sum_comm', sum_comm' (List.range k)]
  refine congrArg List.sum (List.map_congr_left fun cx _ => ?_)
  rw [sum_comm']
  refine congrArg List.sum (List.map_congr_left fun b _ => congrArg List.sum (List.map_congr_left fun a _ => ?_))
  ring

/-- `⟨w * x, r⟩ = ⟨w, backW(r,x)⟩`. -/
theorem C173_transpose [CommSemiring α] (pad : Int) (ni np nj n k : Nat) (cs : List Nat) (Wf Xf Rf : List Nat → α) :
    (sumTo ni fun i => sumTo n fun a => ((allIndices cs).map fun cx =>
        fwd1 pad nj np k Wf Xf (i :: a :: cx) * Rf (i :: a :: cx)).sum) =
      sumTo nj fun j => sumTo n fun a => sumTo k fun b => bwdW1 pad ni np cs Rf Xf [j, a, b] * Wf [j, a, b] := by
  have e1 : (sumTo ni fun i => sumTo n fun a => ((allIndices cs).map fun cx =>
        fwd1 pad nj np k Wf Xf (i :: a :: cx) * Rf (i :: a :: cx)).sum) =
      triples pad ni nj np fun i j p => sumTo n fun a => ((allIndices cs).map fun cx => sumTo k fun b =>
        Wf [j, a, b] * Xf (p :: b :: cx) * Rf (i :: a :: cx)).sum := by
    unfold triples
    refine sumTo_congr fun i _ => ?_
    simp only [fwd1, sumTo_mul, ite_mul, zero_mul]
    refine Eq.trans (sumTo_congr fun a _ => pull (allIndices cs) nj np (fun j p => (i : Int) + j - pad = p) _) ?_
    exact pull (List.range n) nj np (fun j p => (i : Int) + j - pad = p) _
  have e2 : (sumTo nj fun j => sumTo n fun a => sumTo k fun b => bwdW1 pad ni np cs Rf Xf [j, a, b] * Wf [j, a, b]) =
      triples pad ni nj np fun i j p => sumTo n fun a => sumTo k fun b => ((allIndices cs).map fun cx =>
        Rf (i :: a :: cx) * Xf (p :: b :: cx) * Wf [j, a, b]).sum := by
    rw [← triples_j]
    refine sumTo_congr fun j _ => ?_
    simp only [bwdW1, sumTo_mul, ite_mul, zero_mul, sum_mul']
    refine Eq.trans (sumTo_congr fun a _ => pull (List.range k) ni np (fun i p => (i : Int) + j - pad = p) _) ?_
    exact pull (List.range n) ni np (fun i p => (i : Int) + j - pad = p) _
  rw [e1, e2]
  refine triples_congr fun i j p => sumTo_congr fun a _ => ?_
  unfold sumTo
  rw [sum_comm']
  refine congrArg List.sum (List.map_congr_left fun b _ => congrArg List.sum (List.map_congr_left fun cx _ => ?_))
  ring

/-! ## Concrete cases -/

theorem ready_of {r x w : SV} {m : Buf α} {Xf Wf : List Nat → α} (rwf : r.WF) (xwf : x.WF) (wwf : w.WF)
    (has : ∀ ix ∈ allIndices r.dims, (r.val m ix).isSome)
    (inj : ∀ ix ∈ allIndices r.dims, ∀ jx ∈ allIndices r.dims, r.cell ix = r.cell jx → ix = jx)
    (rx : ∀ ix ∈ allIndices r.dims, ∀ jx ∈ allIndices x.dims, r.cell ix ≠ x.cell jx)
    (rw : ∀ ix ∈ allIndices r.dims, ∀ jx ∈ allIndices w.dims, r.cell ix ≠ w.cell jx)
    (xval : ∀ ix ∈ allIndices x.dims, x.val m ix = some (Xf ix))
    (wval : ∀ ix ∈ allIndices w.dims, w.val m ix = some (Wf ix)) : Ready r x w m Xf Wf :=
  ⟨rwf, xwf, wwf, fun ix h => has ix (mem_allIndices.2 h),
    fun ix jx h h' => inj ix (mem_allIndices.2 h) jx (mem_allIndices.2 h'),
    fun ix jx h h' => rx ix (mem_allIndices.2 h) jx (mem_allIndices.2 h'),
    fun ix jx h h' => rw ix (mem_allIndices.2 h) jx (mem_allIndices.2 h'),
    fun ix h => xval ix (mem_allIndices.2 h), fun ix h => wval ix (mem_allIndices.2 h)⟩

/-- Memory with the given cells. -/
def memOf (l : List Int) : Buf Int := fun c => l[c]?

/-- The entries as a function. -/
def entries (v : SV) (m : Buf Int) (ix : List Nat) : Int := (v.val m ix).getD 0

/-- Memory after running, as a list of the first `n` cells. -/
def after (n : Nat) (p : Res (Buf Int)) : Option (List (Option Int)) :=
  match p with
  | .ok m => some ((List.range n).map m)
  | _ => none

/-- Result of four entries in one channel at 0, input of three entries in two channels at 10, filter of two positions at 20. -/
def exR : SV := ⟨0, [4, 1], [1, 1]⟩
def exX : SV := ⟨4, [3, 2], [2, 1]⟩
def exW : SV := ⟨10, [2, 1, 2], [2, 2, 1]⟩
def exM : Buf Int := memOf [100, 0, 0, 0, 1, 2, 3, 4, 5, 6, 1, 0, 0, 10]

theorem exReady : Ready exR exX exW exM (entries exX exM) (entries exW exM) :=
  ready_of rfl rfl rfl (by decide) (by decide) (by decide) (by decide) (by decide) (by decide)

example : ∃ m', conv1d [] exR exX exW exM = .ok m' ∧ exR.Gains (fwd1 1 2 3 2 (entries exW exM) (entries exX exM)) exM m' :=
  C167_channels [] exReady (Or.inl rfl) rfl rfl rfl (Or.inl (by decide))

example : (allIndices exR.dims).map (fwd1 1 2 3 2 (entries exW exM) (entries exX exM)) = [20, 41, 63, 5] := by decide

example : after 4 (conv1d [] exR exX exW exM) = some [some 120, some 41, some 63, some 5] := by decide

/-- Vectors: `x = (1,2,3)`, `w = (1,10)`, result of four entries, which are overwritten. -/
example : Ready (α := Int) ⟨0, [4], [1]⟩ ⟨4, [3], [1]⟩ ⟨7, [2], [1]⟩ (memOf [9, 9, 9, 9, 1, 2, 3, 1, 10])
    (entries ⟨4, [3], [1]⟩ (memOf [9, 9, 9, 9, 1, 2, 3, 1, 10])) (entries ⟨7, [2], [1]⟩ (memOf [9, 9, 9, 9, 1, 2, 3, 1, 10])) :=
  ready_of rfl rfl rfl (by decide) (by decide) (by decide) (by decide) (by decide) (by decide)

example : after 4 (conv1d [] ⟨0, [4], [1]⟩ ⟨4, [3], [1]⟩ ⟨7, [2], [1]⟩ (memOf [9, 9, 9, 9, 1, 2, 3, 1, 10])) =
    some [some 10, some 21, some 32, some 3] := by decide

/-- Four axes: nothing happens, though the sizes agree and the filter is not zero. -/
example : after 2 (conv1d [] ⟨0, [1, 1, 1, 1], [1, 1, 1, 1]⟩ ⟨1, [1, 1, 1, 1], [1, 1, 1, 1]⟩ ⟨2, [1, 1, 1], [1, 1, 1]⟩ (memOf [0, 5, 7])) =
    some [some 0, some 5] := by decide

/-- Five axes, two batches: nothing either. -/
example : after 2 (conv1d [0, 1] ⟨0, [2, 1, 1, 1, 1], [1, 1, 1, 1, 1]⟩ ⟨2, [2, 1, 1, 1, 1], [1, 1, 1, 1, 1]⟩ ⟨4, [1, 1, 1], [1, 1, 1]⟩ (memOf [0, 0, 5, 6, 7])) =
    some [some 0, some 0] := by decide

/-- Two axes: `x` is two by two, `w` two by one, in batches of one; the result three by two. -/
def exR2 : SV := ⟨0, [2, 3, 2, 1, 1], [6, 2, 1, 1, 1]⟩
def exX2 : SV := ⟨12, [2, 2, 2, 1, 1], [4, 2, 1, 1, 1]⟩
def exW2 : SV := ⟨20, [2, 1, 1, 1], [1, 1, 1, 1]⟩
def exM2 : Buf Int := memOf [0, 0, 0, 0, 0, 0, 1, 0, 0, 0, 0, 0, 1, 2, 3, 4, 5, 6, 7, 8, 1, 10]

theorem exReady2 : Ready exR2 exX2 exW2 exM2 (entries exX2 exM2) (entries exW2 exM2) :=
  ready_of rfl rfl rfl (by decide) (by decide) (by decide) (by decide) (by decide) (by decide)

example : ∃ m', conv2d [1, 0] exR2 exX2 exW2 exM2 = .ok m' ∧
    exR2.Gains (perBatch (fun Xf => fwd2 1 0 2 2 1 2 1 (entries exW2 exM2) Xf) (entries exX2 exM2)) exM2 m' :=
  C169_batches (c := 1) exReady2 (nb := 2) (by decide) rfl rfl rfl (Or.inl (by decide)) (Or.inl (by decide))

example : after 12 (conv2d [1, 0] exR2 exX2 exW2 exM2) =
    some ([10, 20, 31, 42, 3, 4, 51, 60, 75, 86, 7, 8].map some) := by decide

/-- The one-batch case and the case without channels. -/
example : after 6 (conv2d [] ⟨0, [3, 2, 1, 1], [2, 1, 1, 1]⟩ ⟨12, [2, 2, 1, 1], [2, 1, 1, 1]⟩ exW2 exM2) =
    some ([10, 20, 31, 42, 3, 4].map some) := by decide

example : Ready (⟨0, [3, 2, 1, 1], [2, 1, 1, 1]⟩ : SV) ⟨12, [2, 2, 1, 1], [2, 1, 1, 1]⟩ exW2 exM2
    (entries ⟨12, [2, 2, 1, 1], [2, 1, 1, 1]⟩ exM2) (entries exW2 exM2) :=
  ready_of rfl rfl rfl (by decide) (by decide) (by decide) (by decide) (by decide) (by decide)

example : Ready (⟨0, [3, 2], [2, 1]⟩ : SV) ⟨12, [2, 2], [2, 1]⟩ ⟨20, [2, 1], [1, 1]⟩ exM2
    (entries ⟨12, [2, 2], [2, 1]⟩ exM2) (entries ⟨20, [2, 1], [1, 1]⟩ exM2) :=
  ready_of rfl rfl rfl (by decide) (by decide) (by decide) (by decide) (by decide) (by decide)

/-- Backwards: the input gradient gains, at every place, what the four results pass back. -/
def bkX : SV := ⟨0, [3, 2], [2, 1]⟩
def bkR : SV := ⟨6, [4, 1], [1, 1]⟩
def bkM : Buf Int := memOf [1000, 0, 0, 0, 0, 0, 1, 2, 3, 4, 1, 0, 0, 10]

theorem bkReady : Ready bkX bkR exW bkM (entries bkR bkM) (entries exW bkM) :=
  ready_of rfl rfl rfl (by decide) (by decide) (by decide) (by decide) (by decide) (by decide)

example : ∃ m', conv1dBack0 [] bkR bkX exW bkM = .ok m' ∧
    bkX.Gains (bwdX1 1 2 4 1 (entries exW bkM) (entries bkR bkM)) bkM m' :=
  C170_channels [] bkReady (Or.inl rfl) rfl rfl rfl (by decide)

example : after 6 (conv1dBack0 [] bkR bkX exW bkM) = some ([1002, 10, 3, 20, 4, 30].map some) := by decide

/-- Two axes, two batches, backwards: `exR2` and `exX2` change places. -/
example : ∃ m', conv2dBack0 [0, 1] exX2 exR2 exW2 exM2 = .ok m' ∧
    exR2.Gains (perBatch (fun Rf => bwdX2 0 0 2 2 1 2 1 (entries exW2 exM2) Rf) (entries exX2 exM2)) exM2 m' :=
  C170_batches2 (c := 1) exReady2 (nb := 2) (by decide) rfl rfl rfl (by decide) (by decide)

example : after 12 (conv2dBack0 [0, 1] exX2 exR2 exW2 exM2) =
    some ([1, 2, 13, 24, 30, 40, 6, 6, 57, 68, 70, 80].map some) := by decide

/-- The same, one batch. -/
example : ∃ m', conv2dBack0 [] ⟨12, [2, 2, 1, 1], [2, 1, 1, 1]⟩ ⟨0, [3, 2, 1, 1], [2, 1, 1, 1]⟩ exW2 exM2 = .ok m' ∧
    (⟨0, [3, 2, 1, 1], [2, 1, 1, 1]⟩ : SV).Gains (bwdX2 0 0 2 2 1 2 1 (entries exW2 exM2)
      (entries ⟨12, [2, 2, 1, 1], [2, 1, 1, 1]⟩ exM2)) exM2 m' :=
  C170_channels2 [] (by exact ready_of rfl rfl rfl (by decide) (by decide) (by decide) (by decide) (by decide) (by decide))
    (Or.inr ⟨1, rfl⟩) rfl rfl rfl (by decide) (by decide)

/-- The input gradient is wrong when the sizes are odd: two entries, a filter of two, and (the default of `convolve1d`) a result
of two entries.  The forward pass has padding 0. -/
theorem C171_odd_fails : ∃ (r x w : SV) (m : Buf Int) (Rf Wf : List Nat → Int),
    Ready x r w m Rf Wf ∧ r.dims = [2, 1] ∧ x.dims = [2, 1] ∧ w.dims = [2, 1, 1] ∧ HalfOf ((2 : Nat) - (2 : Nat) + (2 : Nat) - 1) 0 ∧
      ¬ ∃ m', conv1dBack0 [] r x w m = .ok m' ∧ x.Gains (bwdX1 0 2 2 1 Wf Rf) m m' := by
  refine ⟨⟨2, [2, 1], [1, 1]⟩, ⟨0, [2, 1], [1, 1]⟩, ⟨4, [2, 1, 1], [1, 1, 1]⟩, memOf [0, 0, 1, 3, 1, 10],
    entries ⟨2, [2, 1], [1, 1]⟩ (memOf [0, 0, 1, 3, 1, 10]), entries ⟨4, [2, 1, 1], [1, 1, 1]⟩ (memOf [0, 0, 1, 3, 1, 10]),
    ready_of rfl rfl rfl (by decide) (by decide) (by decide) (by decide) (by decide) (by decide), rfl, rfl, rfl,
    Or.inr (Or.inl (by decide)), ?_⟩
  rintro ⟨m', e, h, _⟩
  have h0 := h [0, 0] (by simp [InRange]) 0 (by decide)
  have e2 : after 2 (conv1dBack0 [] ⟨2, [2, 1], [1, 1]⟩ ⟨0, [2, 1], [1, 1]⟩ ⟨4, [2, 1, 1], [1, 1, 1]⟩ (memOf [0, 0, 1, 3, 1, 10])) =
      some [some 13, some 30] := by decide
  rw [e] at e2
  simp only [after, Option.some.injEq, List.range_succ, List.range_zero, List.nil_append, List.cons_append, List.map_cons,
    List.map_nil, List.cons.injEq] at e2
  have h1 : m' 0 = some 1 := h0.trans (by decide)
  rw [e2.1] at h1
  exact absurd h1 (by decide)

/-- Without channels the gradients are overwritten: what was there is lost. -/
theorem C172_input_fails : ∃ (r x w : SV) (m : Buf Int) (Rf Wf : List Nat → Int),
    Ready x r w m Rf Wf ∧ r.dims = [1] ∧ x.dims = [1] ∧ w.dims = [1] ∧
      ¬ ∃ m', conv1dBack0 [] r x w m = .ok m' ∧ x.Gains (bwdP1 0 1 1 Wf Rf) m m' := by
  refine ⟨⟨1, [1], [1]⟩, ⟨0, [1], [1]⟩, ⟨2, [1], [1]⟩, memOf [100, 2, 3],
    entries ⟨1, [1], [1]⟩ (memOf [100, 2, 3]), entries ⟨2, [1], [1]⟩ (memOf [100, 2, 3]),
    ready_of rfl rfl rfl (by decide) (by decide) (by decide) (by decide) (by decide) (by decide), rfl, rfl, rfl, ?_⟩
  rintro ⟨m', e, h, _⟩
  have h0 := h [0] (by simp [InRange]) 100 (by decide)
  have e2 : after 1 (conv1dBack0 [] ⟨1, [1], [1]⟩ ⟨0, [1], [1]⟩ ⟨2, [1], [1]⟩ (memOf [100, 2, 3])) = some [some 6] := by decide
  rw [e] at e2
  simp only [after, Option.some.injEq, List.range_succ, List.range_zero, List.nil_append, List.map_cons,
    List.map_nil, List.cons.injEq] at e2
  have h1 : m' 0 = some 106 := h0.trans (by decide)
  rw [e2.1] at h1
  exact absurd h1 (by decide)

theorem C172_filter_fails : ∃ (r x w : SV) (m : Buf Int) (Rf Xf : List Nat → Int),
    Ready w x r m Xf Rf ∧ r.dims = [1] ∧ x.dims = [1] ∧ w.dims = [1] ∧
      ¬ ∃ m', conv1dBack1 [] r x w m = .ok m' ∧ w.Gains (bwdQ1 0 1 1 Rf Xf) m m' := by
  refine ⟨⟨1, [1], [1]⟩, ⟨2, [1], [1]⟩, ⟨0, [1], [1]⟩, memOf [100, 2, 3],
    entries ⟨1, [1], [1]⟩ (memOf [100, 2, 3]), entries ⟨2, [1], [1]⟩ (memOf [100, 2, 3]),
    ready_of rfl rfl rfl (by decide) (by decide) (by decide) (by decide) (by decide) (by decide), rfl, rfl, rfl, ?_⟩
  rintro ⟨m', e, h, _⟩
  have h0 := h [0] (by simp [InRange]) 100 (by decide)
  have e2 : after 1 (conv1dBack1 [] ⟨1, [1], [1]⟩ ⟨2, [1], [1]⟩ ⟨0, [1], [1]⟩ (memOf [100, 2, 3])) = some [some 6] := by decide
  rw [e] at e2
  simp only [after, Option.some.injEq, List.range_succ, List.range_zero, List.nil_append, List.map_cons,
    List.map_nil, List.cons.injEq] at e2
  have h1 : m' 0 = some 106 := h0.trans (by decide)
  rw [e2.1] at h1
  exact absurd h1 (by decide)

/-- The filter gradient: `w` of two positions, one output and two input channels; `x` and `r` as above. -/
def fwW : SV := ⟨0, [2, 1, 2], [2, 2, 1]⟩
def fwX : SV := ⟨4, [3, 2], [2, 1]⟩
def fwR : SV := ⟨10, [4, 1], [1, 1]⟩
def fwM : Buf Int := memOf [1000, 0, 0, 0, 1, 2, 3, 4, 5, 6, 1, 10, 100, 1000]

theorem fwReady : Ready fwW fwX fwR fwM (entries fwX fwM) (entries fwR fwM) :=
  ready_of rfl rfl rfl (by decide) (by decide) (by decide) (by decide) (by decide) (by decide)

example : ∃ m', conv1dBack1 [] fwR fwX fwW fwM = .ok m' ∧
    fwW.Gains (bwdW1 1 4 3 [] (entries fwR fwM) (entries fwX fwM)) fwM m' :=
  C173_channels1 [] fwReady (Or.inl rfl) rfl rfl rfl (Or.inl (by decide))

example : after 4 (conv1dBack1 [] fwR fwX fwW fwM) = some ([6310, 6420, 531, 642].map some) := by decide

/-- Two batches. -/
example : ∃ m', conv1dBack1 [1, 0] ⟨10, [2, 2, 1, 1], [2, 1, 1, 1]⟩ ⟨4, [2, 2, 1, 1], [2, 1, 1, 1]⟩ ⟨0, [1, 1, 1], [1, 1, 1]⟩ fwM = .ok m' ∧
    (⟨0, [1, 1, 1], [1, 1, 1]⟩ : SV).Gains (fun jx => sumTo 2 fun b => bwdW1 0 2 2 [1]
      (fun ix => entries ⟨10, [2, 2, 1, 1], [2, 1, 1, 1]⟩ fwM (b :: ix))
      (fun ix => entries ⟨4, [2, 2, 1, 1], [2, 1, 1, 1]⟩ fwM (b :: ix)) jx) fwM m' :=
  C173_batches1 (nb := 2) (by exact ready_of rfl rfl rfl (by decide) (by decide) (by decide) (by decide) (by decide) (by decide))
    (by decide) rfl rfl rfl (Or.inl (by decide))

example : after 1 (conv1dBack1 [1, 0] ⟨10, [2, 2, 1, 1], [2, 1, 1, 1]⟩ ⟨4, [2, 2, 1, 1], [2, 1, 1, 1]⟩ ⟨0, [1, 1, 1], [1, 1, 1]⟩ fwM) =
    some [some 5321] := by decide

/-- Two axes, one and two batches. -/
example : ∃ m', conv2dBack1 [] ⟨10, [2, 2, 1], [2, 1, 1]⟩ ⟨4, [2, 2, 1], [2, 1, 1]⟩ ⟨0, [1, 1, 1, 1], [1, 1, 1, 1]⟩ fwM = .ok m' ∧
    (⟨0, [1, 1, 1, 1], [1, 1, 1, 1]⟩ : SV).Gains (bwdW2 0 0 2 2 2 2 []
      (entries ⟨10, [2, 2, 1], [2, 1, 1]⟩ fwM) (entries ⟨4, [2, 2, 1], [2, 1, 1]⟩ fwM)) fwM m' :=
  C173_channels2 [] (by exact ready_of rfl rfl rfl (by decide) (by decide) (by decide) (by decide) (by decide) (by decide))
    (Or.inl rfl) rfl rfl rfl (Or.inl (by decide)) (Or.inl (by decide))

example : ∃ m', conv2dBack1 [1, 0] ⟨10, [2, 2, 1, 1, 1], [2, 1, 1, 1, 1]⟩ ⟨4, [2, 2, 1, 1, 1], [2, 1, 1, 1, 1]⟩
      ⟨0, [1, 1, 1, 1], [1, 1, 1, 1]⟩ fwM = .ok m' ∧
    (⟨0, [1, 1, 1, 1], [1, 1, 1, 1]⟩ : SV).Gains (fun jx => sumTo 2 fun b => bwdW2 0 0 2 2 1 1 [1]
      (fun ix => entries ⟨10, [2, 2, 1, 1, 1], [2, 1, 1, 1, 1]⟩ fwM (b :: ix))
      (fun ix => entries ⟨4, [2, 2, 1, 1, 1], [2, 1, 1, 1, 1]⟩ fwM (b :: ix)) jx) fwM m' :=
  C173_batches2 (nb := 2) (by exact ready_of rfl rfl rfl (by decide) (by decide) (by decide) (by decide) (by decide) (by decide))
    (by decide) rfl rfl rfl (Or.inl (by decide)) (Or.inl (by decide))

/-! ## C174: `convolve1d` and `convolve2d` -/

/-- The size of the result and the padding used: `pad=-1` keeps the size. -/
def Sized (np nj : Nat) (pad : Int) (ni : Nat) (used : Int) : Prop :=
  (pad = -1 ∧ ni = np ∧ HalfOf ((nj : Int) - 1) used) ∨ (0 ≤ pad ∧ (ni : Int) = np + 2 * pad - nj + 1 ∧ used = pad)

theorem Sized.half {np nj : Nat} {pad : Int} {ni : Nat} {used : Int} (h : Sized np nj pad ni used) :
    HalfOf ((ni : Int) - np + nj - 1) used := by
  rcases h with ⟨_, rfl, h⟩ | ⟨_, h, rfl⟩
  · rwa [show (ni : Int) - ni + nj - 1 = (nj : Int) - 1 by omega]
  · exact Or.inl (by omega)

theorem Sized.size {np nj : Nat} {pad : Int} {ni : Nat} {used : Int} (h : Sized np nj pad ni used) :
    Conv.sizeOf (outSize np nj pad) = .ok ni := by
  rcases h with ⟨rfl, rfl, _⟩ | ⟨h0, h, _⟩
  · simp [outSize, Conv.sizeOf]
  · have : outSize np nj pad = ni := by unfold outSize; rw [if_neg (by omega)]; omega
    simp [this, Conv.sizeOf]

theorem sdot_ofNat (s ix : List Nat) : sdot (s.map Int.ofNat) ix = dot s ix := by
  induction s generalizing ix with
  | nil => simp [sdot, dot]
  | cons a s ih =>
    cases ix with
    | nil => simp [sdot, dot]
    | cons i ix =>
      simp only [List.map_cons, sdot, ih]
      simp [dot]

theorem fresh_cell (q : Nat) (dims ix : List Nat) (h : InRange ix dims) :
    (fresh q dims).cell ix = ((q + position dims ix : Nat) : Int) := by
  simp only [fresh, SV.cell]
  rw [sdot_ofNat, dot_rmStrides dims ix h.length]
  push_cast
  rfl

theorem fresh_wf (q : Nat) (dims : List Nat) : (fresh q dims).WF := by simp [fresh, SV.WF, rmStrides_length]

/-- The operands of a call that makes its result: memory is free where the result will be. -/
structure Inputs (x w : SV) (m : Buf α) (Xf Wf : List Nat → α) (q n : Nat) : Prop where
  xwf : x.WF
  wwf : w.WF
  xval : x.Holds m Xf
  wval : w.Holds m Wf
  free : ∀ c, q ≤ c → c < q + n → m c = none

theorem holds_alloc [Zero α] {v : SV} {m : Buf α} {f : List Nat → α} {q n : Nat} (h : v.Holds m f)
    (hf : ∀ c, q ≤ c → c < q + n → m c = none) : v.Holds (allocZero m q n) f := by
  intro ix hix
  have := h ix hix
  unfold SV.val Buf.cellAt at this ⊢
  by_cases h0 : 0 ≤ v.cell ix
  · rw [if_pos h0] at this ⊢
    unfold allocZero
    rw [if_neg, this]
    rintro ⟨h1, h2⟩
    rw [hf _ h1 h2] at this
    cases this
  · rw [if_neg h0] at this; cases this

theorem Inputs.apart {v : SV} {m : Buf α} {f : List Nat → α} {q : Nat} {dims : List Nat} (h : v.Holds m f)
    (hf : ∀ c, q ≤ c → c < q + asize dims → m c = none) : (fresh q dims).Apart v := by
  intro ix jx hix hjx e
  have := h jx hjx
  unfold SV.val Buf.cellAt at this
  have hp := position_lt (show InRange ix dims from hix)
  rw [fresh_cell q dims ix hix] at e
  rw [← e, if_pos (by omega), Int.toNat_natCast, hf _ (by omega) (by rw [asize_eq]; omega)] at this
  cases this

theorem Inputs.ready [Zero α] {x w : SV} {m : Buf α} {Xf Wf : List Nat → α} {q : Nat} {dims : List Nat}
    (h : Inputs x w m Xf Wf q (asize dims)) : Ready (fresh q dims) x w (allocZero m q (asize dims)) Xf Wf := by
  refine ⟨fresh_wf q dims, h.xwf, h.wwf, fun ix hix => ?_, fun ix jx hix hjx e => ?_, Inputs.apart h.xval h.free,
    Inputs.apart h.wval h.free, holds_alloc h.xval h.free, holds_alloc h.wval h.free⟩
  · have hix' : InRange ix dims := hix
    have hp := position_lt hix'
    rw [SV.val, fresh_cell q dims ix hix', Buf.cellAt, if_pos (by omega), Int.toNat_natCast, allocZero,
      if_pos ⟨by omega, by rw [asize_eq]; omega⟩]
    rfl
  · rw [fresh_cell q dims ix hix, fresh_cell q dims jx hjx] at e
    exact position_inj (show InRange ix dims from hix) (show InRange jx dims from hjx) (by omega)

/-- The result is a new tensor with the given entries; nothing else has changed. -/
def Made1 (res : Res (Option SV × Buf α)) (m : Buf α) (q : Nat) (dims : List Nat) (G : List Nat → α) : Prop :=
  ∃ m', res = .ok (some (fresh q dims), m') ∧ (fresh q dims).Holds m' G ∧
    ∀ c, c < q ∨ q + dims.prod ≤ c → m' c = m c

theorem made_gains [AddZeroClass α] {m m' : Buf α} {q : Nat} {dims : List Nat} {G : List Nat → α}
    (h : (fresh q dims).Gains G (allocZero m q (asize dims)) m') :
    (fresh q dims).Holds m' G ∧ ∀ c, c < q ∨ q + dims.prod ≤ c → m' c = m c := by
  refine ⟨fun ix hix => ?_, fun c hc => ?_⟩
  · have hix' : InRange ix dims := hix
    have hp := position_lt hix'
    have := h.1 ix hix 0 (by
      rw [SV.val, fresh_cell q dims ix hix', Buf.cellAt, if_pos (by omega), Int.toNat_natCast, allocZero,
        if_pos ⟨by omega, by rw [asize_eq]; omega⟩])
    rwa [zero_add] at this
  · rw [h.2 c (fun ix hix e => ?_), allocZero, if_neg (by rw [asize_eq]; omega)]
    have hp := position_lt (show InRange ix dims from hix)
    rw [fresh_cell q dims ix hix] at e
    omega

theorem made_becomes [Zero α] {m m' : Buf α} {q : Nat} {dims : List Nat} {G : List Nat → α}
    (h : (fresh q dims).Becomes G (allocZero m q (asize dims)) m') :
    (fresh q dims).Holds m' G ∧ ∀ c, c < q ∨ q + dims.prod ≤ c → m' c = m c := by
  refine ⟨h.1, fun c hc => ?_⟩
  rw [h.2 c (fun ix hix e => ?_), allocZero, if_neg (by rw [asize_eq]; omega)]
  have hp := position_lt (show InRange ix dims from hix)
  rw [fresh_cell q dims ix hix] at e
  omega

theorem C174_vector [NonUnitalNonAssocSemiring α] {x w : SV} {m : Buf α} {Xf Wf : List Nat → α} {q np nj ni : Nat}
    {pad used : Int} (dx : x.dims = [np]) (dw : w.dims = [nj]) (hs : Sized np nj pad ni used)
    (h : Inputs x w m Xf Wf q (asize [ni])) :
    Made1 (convolve1d x w pad q m) m q [ni] (plain1 used nj np Wf Xf) := by
  obtain ⟨m', k1, k2⟩ := C167_plain [] h.ready rfl dx dw hs.half
  obtain ⟨k3, k4⟩ := made_becomes k2
  refine ⟨m', ?_, k3, k4⟩
  simp only [convolve1d, dx, dw]
  simp only [List.length_singleton, Res.get, List.getElem?_cons_zero, Res.ok_bind, hs.size, k1, ↓reduceIte]

theorem C174_channels1 [NonUnitalNonAssocSemiring α] {x w : SV} {m : Buf α} {Xf Wf : List Nat → α} {q np nj ni n k : Nat}
    {cs : List Nat} (hcs : cs = [] ∨ ∃ c, cs = [c])
    {pad used : Int} (dx : x.dims = np :: k :: cs) (dw : w.dims = [nj, n, k]) (hs : Sized np nj pad ni used)
    (h : Inputs x w m Xf Wf q (asize (ni :: n :: cs))) :
    Made1 (convolve1d x w pad q m) m q (ni :: n :: cs) (fwd1 used nj np k Wf Xf) := by
  obtain ⟨m', k1, k2⟩ := C167_channels [] h.ready hcs rfl dx dw hs.half
  obtain ⟨k3, k4⟩ := made_gains k2
  refine ⟨m', ?_, k3, k4⟩
  rcases hcs with rfl | ⟨c, rfl⟩
  · simp [convolve1d, dx, dw, Res.get, hs.size, k1]
  · simp [convolve1d, dx, dw, Res.get, hs.size, k1]

theorem C174_matrix [NonUnitalNonAssocSemiring α] {x w : SV} {m : Buf α} {Xf Wf : List Nat → α}
    {q np0 nj0 ni0 np1 nj1 ni1 : Nat} {pad0 used0 pad1 used1 : Int} (dx : x.dims = [np0, np1]) (dw : w.dims = [nj0, nj1])
    (hs0 : Sized np0 nj0 pad0 ni0 used0) (hs1 : Sized np1 nj1 pad1 ni1 used1) (h : Inputs x w m Xf Wf q (asize [ni0, ni1])) :
    Made1 (convolve2d x w pad0 pad1 q m) m q [ni0, ni1] (plain2 used0 used1 nj0 np0 nj1 np1 Wf Xf) := by
  obtain ⟨m', k1, k2⟩ := C169_plain [] h.ready rfl dx dw hs0.half hs1.half
  obtain ⟨k3, k4⟩ := made_becomes k2
  refine ⟨m', ?_, k3, k4⟩
  simp [convolve2d, dx, dw, Res.get, hs0.size, hs1.size, k1]

theorem C174_channels2 [NonUnitalNonAssocSemiring α] {x w : SV} {m : Buf α} {Xf Wf : List Nat → α}
    {q np0 nj0 ni0 np1 nj1 ni1 n k : Nat} {cs : List Nat} (hcs : cs = [] ∨ ∃ c, cs = [c])
    {pad0 used0 pad1 used1 : Int} (dx : x.dims = np0 :: np1 :: k :: cs) (dw : w.dims = [nj0, nj1, n, k])
    (hs0 : Sized np0 nj0 pad0 ni0 used0) (hs1 : Sized np1 nj1 pad1 ni1 used1)
    (h : Inputs x w m Xf Wf q (asize (ni0 :: ni1 :: n :: cs))) :
    Made1 (convolve2d x w pad0 pad1 q m) m q (ni0 :: ni1 :: n :: cs) (fwd2 used0 used1 nj0 np0 nj1 np1 k Wf Xf) := by
  obtain ⟨m', k1, k2⟩ := C169_channels [] h.ready hcs rfl dx dw hs0.half hs1.half
  obtain ⟨k3, k4⟩ := made_gains k2
  refine ⟨m', ?_, k3, k4⟩
  rcases hcs with rfl | ⟨c, rfl⟩
  · simp [convolve2d, dx, dw, Res.get, hs0.size, hs1.size, k1]
  · simp [convolve2d, dx, dw, Res.get, hs0.size, hs1.size, k1]

/-- The batched form of `convolve1d` builds a result with an axis too few and throws. -/
theorem C168_make1_fails [NonUnitalNonAssocSemiring α] {x w : SV} {m : Buf α} {q b np nj n k c : Nat} {pad : Int}
    (dx : x.dims = [b, np, k, c]) (dw : w.dims = [nj, n, k]) (hp : 0 ≤ outSize b nj pad) :
    convolve1d x w pad q m = .throw := by
  simp only [convolve1d, dx, dw]
  simp [Res.get, Conv.sizeOf, hp, conv1d, conv1dCore, fresh, dx, Res.assrt]

/-- The batched form of `convolve2d` likewise. -/
theorem C168_make2_fails [NonUnitalNonAssocSemiring α] {x w : SV} {m : Buf α} {q b np0 np1 nj0 nj1 n k c : Nat}
    {pad0 pad1 : Int} (dx : x.dims = [b, np0, np1, k, c]) (dw : w.dims = [nj0, nj1, n, k]) (hp : 0 ≤ outSize b nj0 pad0) :
    convolve2d x w pad0 pad1 q m = .throw := by
  simp only [convolve2d, dx, dw]
  simp [Res.get, Conv.sizeOf, hp, conv2d, conv2dCore, fresh, dx, Res.assrt]

theorem holds_of {v : SV} {m : Buf α} {f : List Nat → α} (h : ∀ ix ∈ allIndices v.dims, v.val m ix = some (f ix)) :
    v.Holds m f := fun ix hix => h ix (mem_allIndices.2 hix)

/-- `x = (1,2,3)`, `w = (1,10)`, one more cell of padding on each side. -/
example : Inputs (α := Int) ⟨0, [3], [1]⟩ ⟨3, [2], [1]⟩ (memOf [1, 2, 3, 1, 10])
    (entries ⟨0, [3], [1]⟩ (memOf [1, 2, 3, 1, 10])) (entries ⟨3, [2], [1]⟩ (memOf [1, 2, 3, 1, 10])) 5 (asize [4]) :=
  ⟨rfl, rfl, holds_of (by decide), holds_of (by decide), fun c h _ => by simp [memOf]; omega⟩

example : Sized 3 2 1 4 1 := Or.inr ⟨by decide, by decide, rfl⟩
example : Sized 3 2 (-1) 3 0 := Or.inl ⟨rfl, rfl, Or.inr (Or.inl (by decide))⟩

end Cnine
