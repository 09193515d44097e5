import Verif.Model.RConv
import Verif.Props.RConv

/-! # C209 convolutions of float views refuse sizes that do not match -/

namespace Cnine
namespace RConv

open Conv

variable {α : Type} [Zero α] [Add α] [Mul α]

/-- Three axes: as many result channels as filters, as many input channels as the filter has. -/
theorem C209_two (r x w : SV) (hr : r.strides.length = 3) (hx : x.strides.length = 3) (hw : w.strides.length = 4)
    {r0 r1 r2 x0 x1 x2 w0 w1 w2 w3 : Nat} (dr : r.dims = [r0, r1, r2]) (dx : x.dims = [x0, x1, x2]) (dw : w.dims = [w0, w1, w2, w3])
    (h : r2 ≠ w0 ∨ x2 ≠ w3) (m : Buf α) : conv2a r x w m = .throw := by
  obtain ⟨ro, rd, rs⟩ := r
  obtain ⟨xo, xd, xs⟩ := x
  obtain ⟨wo, wd, ws⟩ := w
  simp only at hr hx hw dr dx dw
  subst dr dx dw
  match rs, xs, ws, hr, hx, hw with
  | [_, _, _], [_, _, _], [_, _, _, _], _, _, _ =>
    simp only [conv2a]
    by_cases e : r2 = w0
    · have : x2 ≠ w3 := by omega
      rw [decide_eq_true e, decide_eq_false this]; rfl
    · rw [decide_eq_false e]; rfl

/-- Four axes: also equal sizes of the further axis. -/
theorem C209_two_further (r x w : SV) (hr : r.strides.length = 4) (hx : x.strides.length = 4) (hw : w.strides.length = 4)
    {r0 r1 r2 r3 x0 x1 x2 x3 w0 w1 w2 w3 : Nat} (dr : r.dims = [r0, r1, r2, r3]) (dx : x.dims = [x0, x1, x2, x3])
    (dw : w.dims = [w0, w1, w2, w3]) (h : r2 ≠ w0 ∨ x2 ≠ w3 ∨ r3 ≠ x3) (m : Buf α) : conv2ac r x w m = .throw := by
  obtain ⟨ro, rd, rs⟩ := r
  obtain ⟨xo, xd, xs⟩ := x
  obtain ⟨wo, wd, ws⟩ := w
  simp only at hr hx hw dr dx dw
  subst dr dx dw
  match rs, xs, ws, hr, hx, hw with
  | [_, _, _, _], [_, _, _, _], [_, _, _, _], _, _, _ =>
    simp only [conv2ac]
    by_cases e : r2 = w0
    · by_cases e' : x2 = w3
      · have : r3 ≠ x3 := by omega
        rw [decide_eq_true e, decide_eq_true e', decide_eq_false this]; rfl
      · rw [decide_eq_true e, decide_eq_false e']; rfl
    · rw [decide_eq_false e]; rfl

/-- The same over three axes. -/
theorem C209_three (r x w : SV) (hr : r.strides.length = 4) (hx : x.strides.length = 4) (hw : w.strides.length = 5)
    {r0 r1 r2 r3 x0 x1 x2 x3 w0 w1 w2 w3 w4 : Nat} (dr : r.dims = [r0, r1, r2, r3]) (dx : x.dims = [x0, x1, x2, x3])
    (dw : w.dims = [w0, w1, w2, w3, w4]) (h : r3 ≠ w0 ∨ x3 ≠ w4) (m : Buf α) : conv3a r x w m = .throw := by
  obtain ⟨ro, rd, rs⟩ := r
  obtain ⟨xo, xd, xs⟩ := x
  obtain ⟨wo, wd, ws⟩ := w
  simp only at hr hx hw dr dx dw
  subst dr dx dw
  match rs, xs, ws, hr, hx, hw with
  | [_, _, _, _], [_, _, _, _], [_, _, _, _, _], _, _, _ =>
    simp only [conv3a]
    by_cases e : r3 = w0
    · have : x3 ≠ w4 := by omega
      rw [decide_eq_true e, decide_eq_false this]; rfl
    · rw [decide_eq_false e]; rfl

theorem C209_three_further (r x w : SV) (hr : r.strides.length = 5) (hx : x.strides.length = 5) (hw : w.strides.length = 5)
    {r0 r1 r2 r3 r4 x0 x1 x2 x3 x4 w0 w1 w2 w3 w4 : Nat} (dr : r.dims = [r0, r1, r2, r3, r4]) (dx : x.dims = [x0, x1, x2, x3, x4])
    (dw : w.dims = [w0, w1, w2, w3, w4]) (h : r3 ≠ w0 ∨ x3 ≠ w4 ∨ r4 ≠ x4) (m : Buf α) : conv3ac r x w m = .throw := by
  obtain ⟨ro, rd, rs⟩ := r
  obtain ⟨xo, xd, xs⟩ := x
  obtain ⟨wo, wd, ws⟩ := w
  simp only at hr hx hw dr dx dw
  subst dr dx dw
  match rs, xs, ws, hr, hx, hw with
  | [_, _, _, _, _], [_, _, _, _, _], [_, _, _, _, _], _, _, _ =>
    simp only [conv3ac]
    by_cases e : r3 = w0
    · by_cases e' : x3 = w4
      · have : r4 ≠ x4 := by omega
        rw [decide_eq_true e, decide_eq_true e', decide_eq_false this]; rfl
      · rw [decide_eq_true e, decide_eq_false e']; rfl
    · rw [decide_eq_false e]; rfl

/-- The input gradient: the filter's first axis belongs to the gradient of the result, its last to that of the input. -/
theorem C209_back (rg xg w : SV) (hr : rg.strides.length = 4) (hx : xg.strides.length = 4) (hw : w.strides.length = 5)
    {r0 r1 r2 r3 x0 x1 x2 x3 w0 w1 w2 w3 w4 : Nat} (dr : rg.dims = [r0, r1, r2, r3]) (dx : xg.dims = [x0, x1, x2, x3])
    (dw : w.dims = [w0, w1, w2, w3, w4]) (h : r3 ≠ w0 ∨ x3 ≠ w4) (m : Buf α) : conv3aBack0 rg xg w m = .throw := by
  obtain ⟨wo, wd, ws⟩ := w
  simp only at hw dw
  subst dw
  match ws, hw with
  | [_, _, _, _, _], _ =>
    simp only [conv3aBack0]
    exact C209_three _ _ _ hx hr rfl dx dr rfl (by tauto) m

theorem C209_back_further (rg xg w : SV) (hr : rg.strides.length = 5) (hx : xg.strides.length = 5) (hw : w.strides.length = 5)
    {r0 r1 r2 r3 r4 x0 x1 x2 x3 x4 w0 w1 w2 w3 w4 : Nat} (dr : rg.dims = [r0, r1, r2, r3, r4]) (dx : xg.dims = [x0, x1, x2, x3, x4])
    (dw : w.dims = [w0, w1, w2, w3, w4]) (h : r3 ≠ w0 ∨ x3 ≠ w4 ∨ r4 ≠ x4) (m : Buf α) : conv3acBack0 rg xg w m = .throw := by
  obtain ⟨wo, wd, ws⟩ := w
  simp only at hw dw
  subst dw
  match ws, hw with
  | [_, _, _, _, _], _ =>
    simp only [conv3acBack0]
    exact C209_three_further _ _ _ hx hr rfl dx dr rfl (by
      rcases h with h | h | h
      · exact Or.inr (Or.inl h)
      · exact Or.inl h
      · exact Or.inr (Or.inr (Ne.symm h))) m

/-- Sparse filters: as many result channels as rows of the filter, equal sizes of the further axis. -/
theorem C209_sparse_two (r x : SV) (hr : r.strides.length = 3) (hx : x.strides.length = 3) {r0 r1 r2 x0 x1 x2 : Nat}
    (dr : r.dims = [r0, r1, r2]) (dx : x.dims = [x0, x1, x2]) (wn : Nat) (es : List (Nat × Nat × α)) (J0 J1 : Nat) (h : r2 ≠ wn)
    (m : Buf α) : conv2s r x wn es J0 J1 m = .throw := by
  obtain ⟨ro, rd, rs⟩ := r
  obtain ⟨xo, xd, xs⟩ := x
  simp only at hr hx dr dx
  subst dr dx
  match rs, xs, hr, hx with
  | [_, _, _], [_, _, _], _, _ =>
    simp only [conv2s]
    rw [decide_eq_false h]; rfl

theorem C209_sparse_two_further (r x : SV) (hr : r.strides.length = 4) (hx : x.strides.length = 4) {r0 r1 r2 r3 x0 x1 x2 x3 : Nat}
    (dr : r.dims = [r0, r1, r2, r3]) (dx : x.dims = [x0, x1, x2, x3]) (wn : Nat) (es : List (Nat × Nat × α)) (J0 J1 : Nat)
    (h : r2 ≠ wn ∨ r3 ≠ x3) (m : Buf α) : conv2sc r x wn es J0 J1 m = .throw := by
  obtain ⟨ro, rd, rs⟩ := r
  obtain ⟨xo, xd, xs⟩ := x
  simp only at hr hx dr dx
  subst dr dx
  match rs, xs, hr, hx with
  | [_, _, _, _], [_, _, _, _], _, _ =>
    simp only [conv2sc]
    by_cases e : r2 = wn
    · have : r3 ≠ x3 := by omega
      rw [decide_eq_true e, decide_eq_false this]; rfl
    · rw [decide_eq_false e]; rfl

theorem C209_sparse_three (r x : SV) (hr : r.strides.length = 4) (hx : x.strides.length = 4) {r0 r1 r2 r3 x0 x1 x2 x3 : Nat}
    (dr : r.dims = [r0, r1, r2, r3]) (dx : x.dims = [x0, x1, x2, x3]) (wn : Nat) (es : List (Nat × Nat × α)) (J0 J1 J2 : Nat)
    (h : r3 ≠ wn) (m : Buf α) : conv3s r x wn es J0 J1 J2 m = .throw := by
  obtain ⟨ro, rd, rs⟩ := r
  obtain ⟨xo, xd, xs⟩ := x
  simp only at hr hx dr dx
  subst dr dx
  match rs, xs, hr, hx with
  | [_, _, _, _], [_, _, _, _], _, _ =>
    simp only [conv3s]
    rw [decide_eq_false h]; rfl

theorem C209_sparse_three_further (r x : SV) (hr : r.strides.length = 5) (hx : x.strides.length = 5) {r0 r1 r2 r3 r4 x0 x1 x2 x3 x4 : Nat}
    (dr : r.dims = [r0, r1, r2, r3, r4]) (dx : x.dims = [x0, x1, x2, x3, x4]) (wn : Nat) (es : List (Nat × Nat × α)) (J0 J1 J2 : Nat)
    (h : r3 ≠ wn ∨ r4 ≠ x4) (m : Buf α) : conv3sc r x wn es J0 J1 J2 m = .throw := by
  obtain ⟨ro, rd, rs⟩ := r
  obtain ⟨xo, xd, xs⟩ := x
  simp only at hr hx dr dx
  subst dr dx
  match rs, xs, hr, hx with
  | [_, _, _, _, _], [_, _, _, _, _], _, _ =>
    simp only [conv3sc]
    by_cases e : r3 = wn
    · have : r4 ≠ x4 := by omega
      rw [decide_eq_true e, decide_eq_false this]; rfl
    · rw [decide_eq_false e]; rfl

/-- With batches: the sizes are compared before the loop, so also for empty batches. -/
theorem C209_batches (r x w : SV) {r0 r1 r2 r3 r4 x0 x1 x2 x3 x4 w0 w1 w2 w3 : Nat} (dr : r.dims = [r0, r1, r2, r3, r4])
    (dx : x.dims = [x0, x1, x2, x3, x4]) (dw : w.dims = [w0, w1, w2, w3]) (h : r0 ≠ x0 ∨ r3 ≠ w0 ∨ r4 ≠ x4 ∨ x3 ≠ w3) (m : Buf α) :
    conv2b r x w m = .throw := by
  unfold conv2b
  simp only [dr, dx, dw, List.getElem?_cons_zero, List.getElem?_cons_succ, Option.some.injEq]
  by_cases e1 : r0 = x0
  · by_cases e2 : r3 = w0
    · by_cases e3 : r4 = x4
      · have e4 : x3 ≠ w3 := by omega
        rw [decide_eq_true e1, decide_eq_true e2, decide_eq_true e3, decide_eq_false e4]; rfl
      · rw [decide_eq_true e1, decide_eq_true e2, decide_eq_false e3]; rfl
    · rw [decide_eq_true e1, decide_eq_false e2]; rfl
  · rw [decide_eq_false e1]; rfl

theorem C209_blocks (r x w : SV) {r0 r1 r2 r3 r4 r5 x0 x1 x2 x3 x4 x5 w0 w1 w2 w3 : Nat} (dr : r.dims = [r0, r1, r2, r3, r4, r5])
    (dx : x.dims = [x0, x1, x2, x3, x4, x5]) (dw : w.dims = [w0, w1, w2, w3])
    (h : r0 ≠ x0 ∨ r3 ≠ x3 ∨ r4 ≠ w0 ∨ x4 ≠ w3 ∨ r5 ≠ x5) (m : Buf α) : conv2bd r x w m = .throw := by
  unfold conv2bd
  simp only [dr, dx, dw, List.getElem?_cons_zero, List.getElem?_cons_succ, Option.some.injEq]
  by_cases e1 : r0 = x0
  · by_cases e2 : r3 = x3
    · by_cases e3 : r4 = w0
      · by_cases e4 : x4 = w3
        · have e5 : r5 ≠ x5 := by omega
          rw [decide_eq_true e1, decide_eq_true e2, decide_eq_true e3, decide_eq_true e4, decide_eq_false e5]; rfl
        · rw [decide_eq_true e1, decide_eq_true e2, decide_eq_true e3, decide_eq_false e4]; rfl
      · rw [decide_eq_true e1, decide_eq_true e2, decide_eq_false e3]; rfl
    · rw [decide_eq_true e1, decide_eq_false e2]; rfl
  · rw [decide_eq_false e1]; rfl

theorem C209_batches_three (r x w : SV) {r0 r1 r2 r3 r4 r5 x0 x1 x2 x3 x4 x5 w0 w1 w2 w3 w4 : Nat}
    (dr : r.dims = [r0, r1, r2, r3, r4, r5]) (dx : x.dims = [x0, x1, x2, x3, x4, x5]) (dw : w.dims = [w0, w1, w2, w3, w4])
    (h : r0 ≠ x0 ∨ r4 ≠ w0 ∨ r5 ≠ x5 ∨ x4 ≠ w4) (m : Buf α) : conv3b r x w m = .throw := by
  unfold conv3b
  simp only [dr, dx, dw, List.getElem?_cons_zero, List.getElem?_cons_succ, Option.some.injEq]
  by_cases e1 : r0 = x0
  · by_cases e2 : r4 = w0
    · by_cases e3 : r5 = x5
      · have e4 : x4 ≠ w4 := by omega
        rw [decide_eq_true e1, decide_eq_true e2, decide_eq_true e3, decide_eq_false e4]; rfl
      · rw [decide_eq_true e1, decide_eq_true e2, decide_eq_false e3]; rfl
    · rw [decide_eq_true e1, decide_eq_false e2]; rfl
  · rw [decide_eq_false e1]; rfl

theorem C209_sparse_batches (r x : SV) {r0 r1 r2 r3 r4 x0 x1 x2 x3 x4 : Nat} (dr : r.dims = [r0, r1, r2, r3, r4])
    (dx : x.dims = [x0, x1, x2, x3, x4]) (wn : Nat) (es : List (Nat × Nat × α)) (J0 J1 : Nat) (h : r0 ≠ x0 ∨ r3 ≠ wn ∨ r4 ≠ x4)
    (m : Buf α) : conv2sb r x wn es J0 J1 m = .throw := by
  unfold conv2sb
  simp only [dr, dx, List.getElem?_cons_zero, List.getElem?_cons_succ, Option.some.injEq]
  by_cases e1 : r0 = x0
  · by_cases e2 : r3 = wn
    · have e3 : r4 ≠ x4 := by omega
      rw [decide_eq_true e1, decide_eq_true e2, decide_eq_false e3]; rfl
    · rw [decide_eq_true e1, decide_eq_false e2]; rfl
  · rw [decide_eq_false e1]; rfl

theorem C209_sparse_blocks (r x : SV) {r0 r1 r2 r3 r4 r5 x0 x1 x2 x3 x4 x5 : Nat} (dr : r.dims = [r0, r1, r2, r3, r4, r5])
    (dx : x.dims = [x0, x1, x2, x3, x4, x5]) (wn : Nat) (es : List (Nat × Nat × α)) (J0 J1 : Nat)
    (h : r0 ≠ x0 ∨ r4 ≠ wn ∨ r3 ≠ x3 ∨ r5 ≠ x5) (m : Buf α) : conv2sbd r x wn es J0 J1 m = .throw := by
  unfold conv2sbd
  simp only [dr, dx, List.getElem?_cons_zero, List.getElem?_cons_succ, Option.some.injEq]
  by_cases e1 : r0 = x0
  · by_cases e2 : r4 = wn
    · by_cases e3 : r3 = x3
      · have e4 : r5 ≠ x5 := by omega
        rw [decide_eq_true e1, decide_eq_true e2, decide_eq_true e3, decide_eq_false e4]; rfl
      · rw [decide_eq_true e1, decide_eq_true e2, decide_eq_false e3]; rfl
    · rw [decide_eq_true e1, decide_eq_false e2]; rfl
  · rw [decide_eq_false e1]; rfl

theorem C209_sparse_batches_three (r x : SV) {r0 r1 r2 r3 r4 r5 x0 x1 x2 x3 x4 x5 : Nat} (dr : r.dims = [r0, r1, r2, r3, r4, r5])
    (dx : x.dims = [x0, x1, x2, x3, x4, x5]) (wn : Nat) (es : List (Nat × Nat × α)) (J0 J1 J2 : Nat)
    (h : r0 ≠ x0 ∨ r4 ≠ wn ∨ r5 ≠ x5) (m : Buf α) : conv3sb r x wn es J0 J1 J2 m = .throw := by
  unfold conv3sb
  simp only [dr, dx, List.getElem?_cons_zero, List.getElem?_cons_succ, Option.some.injEq]
  by_cases e1 : r0 = x0
  · by_cases e2 : r4 = wn
    · have e3 : r5 ≠ x5 := by omega
      rw [decide_eq_true e1, decide_eq_true e2, decide_eq_false e3]; rfl
    · rw [decide_eq_true e1, decide_eq_false e2]; rfl
  · rw [decide_eq_false e1]; rfl

/-- The channel axis of an input convolved over `k` axes: right after them, with a batch axis in front from rank `k + 3` on and a
block axis before it at rank `k + 4`. -/
def channels (k : Nat) (xs : List Nat) : Option Nat :=
  if xs.length = k + 1 ∨ xs.length = k + 2 then xs[k]? else if xs.length = k + 3 then xs[k + 1]?
  else if xs.length = k + 4 then xs[k + 2]? else none

/-- `convolve2D` throws unless the filter has as many channels as the input. -/
theorem C209_convolve2D (x w : SV) {w0 w1 w2 w3 c : Nat} (dw : w.dims = [w0, w1, w2, w3]) (hc : channels 2 x.dims = some c)
    (h : w3 ≠ c) (pad0 pad1 : Int) (q : Nat) (m : Buf α) : convolve2D x w pad0 pad1 q m = .throw := by
  unfold convolve2D
  rw [dw]
  generalize x.dims = xs at hc
  match xs, hc with
  | [_, _, _], hc | [_, _, _, _], hc | [_, _, _, _, _], hc | [_, _, _, _, _, _], hc =>
    simp only [channels, List.length_cons, List.length_nil] at hc
    simp at hc
    subst hc
    simp only
    rw [decide_eq_false h]; rfl
  | [], hc | [_], hc | [_, _], hc => simp [channels] at hc
  | _ :: _ :: _ :: _ :: _ :: _ :: _ :: l, hc => simp [channels] at hc

/-- `convolve2D` throws for a filter of any other rank. -/
theorem C209_convolve2D_rank (x w : SV) (h : w.dims.length ≠ 4) (pad0 pad1 : Int) (q : Nat) (m : Buf α) :
    convolve2D x w pad0 pad1 q m = .throw := by
  unfold convolve2D
  generalize w.dims = ws at h
  match ws, h with
  | [_, _, _, _], h => exact absurd rfl h
  | [], _ | [_], _ | [_, _], _ | [_, _, _], _ => rfl
  | _ :: _ :: _ :: _ :: _ :: l, _ => rfl

theorem C209_convolve3D (x w : SV) {w0 w1 w2 w3 w4 c : Nat} (dw : w.dims = [w0, w1, w2, w3, w4])
    (hl : x.dims.length ≤ 6) (hc : channels 3 x.dims = some c) (h : w4 ≠ c) (pad0 pad1 pad2 : Int) (q : Nat) (m : Buf α) :
    convolve3D x w pad0 pad1 pad2 q m = .throw := by
  unfold convolve3D
  rw [dw]
  generalize x.dims = xs at hc hl
  match xs, hc with
  | [_, _, _, _], hc | [_, _, _, _, _], hc | [_, _, _, _, _, _], hc =>
    simp only [channels, List.length_cons, List.length_nil] at hc
    simp at hc
    subst hc
    simp only
    rw [decide_eq_false h]; rfl
  | [], hc | [_], hc | [_, _], hc | [_, _, _], hc => simp [channels] at hc
  | _ :: _ :: _ :: _ :: _ :: _ :: _ :: l, hc => simp at hl

theorem C209_convolve3D_rank (x w : SV) (h : w.dims.length ≠ 5) (pad0 pad1 pad2 : Int) (q : Nat) (m : Buf α) :
    convolve3D x w pad0 pad1 pad2 q m = .throw := by
  unfold convolve3D
  generalize w.dims = ws at h
  match ws, h with
  | [_, _, _, _, _], h => exact absurd rfl h
  | [], _ | [_], _ | [_, _], _ | [_, _, _], _ | [_, _, _, _], _ => rfl
  | _ :: _ :: _ :: _ :: _ :: _ :: l, _ => rfl

/-- With a sparse filter: unless it has a column for every position in the window and channel. -/
theorem C209_sparse_convolve2D (x : SV) {c : Nat} (hc : channels 2 x.dims = some c) (wn wm : Nat) (es : List (Nat × Nat × α))
    (J0 J1 : Nat) (h : wm ≠ J0 * J1 * c) (pad0 pad1 : Int) (q : Nat) (m : Buf α) :
    convolve2Ds x wn wm es J0 J1 pad0 pad1 q m = .throw := by
  unfold convolve2Ds
  generalize x.dims = xs at hc
  match xs, hc with
  | [_, _, _], hc | [_, _, _, _], hc | [_, _, _, _, _], hc | [_, _, _, _, _, _], hc =>
    simp only [channels, List.length_cons, List.length_nil] at hc
    simp at hc
    subst hc
    simp only
    rw [decide_eq_false h]; rfl
  | [], hc | [_], hc | [_, _], hc => simp [channels] at hc
  | _ :: _ :: _ :: _ :: _ :: _ :: _ :: l, hc => simp [channels] at hc

theorem C209_sparse_convolve3D (x : SV) {c : Nat} (hl : x.dims.length ≤ 6) (hc : channels 3 x.dims = some c) (wn wm : Nat)
    (es : List (Nat × Nat × α)) (J0 J1 J2 : Nat) (h : wm ≠ J0 * J1 * J2 * c) (pad0 pad1 pad2 : Int) (q : Nat) (m : Buf α) :
    convolve3Ds x wn wm es J0 J1 J2 pad0 pad1 pad2 q m = .throw := by
  unfold convolve3Ds
  generalize x.dims = xs at hc hl
  match xs, hc with
  | [_, _, _, _], hc | [_, _, _, _, _], hc | [_, _, _, _, _, _], hc =>
    simp only [channels, List.length_cons, List.length_nil] at hc
    simp at hc
    subst hc
    simp only
    rw [decide_eq_false h]; rfl
  | [], hc | [_], hc | [_, _], hc | [_, _, _], hc => simp [channels] at hc
  | _ :: _ :: _ :: _ :: _ :: _ :: _ :: l, hc => simp at hl

/-- Five axes and a filter for three channels instead of two. -/
example : convolve2D ⟨0, [1, 1, 1, 2, 1], [2, 2, 2, 1, 1]⟩ ⟨2, [1, 1, 1, 3], [1, 1, 1, 1]⟩ 0 0 9 (memOf [1, 2, 3, 4, 5]) = .throw :=
  C209_convolve2D _ _ rfl rfl (by decide) _ _ _ _

/-- One result channel for a filter with two. -/
example : conv2a ⟨0, [1, 1, 1], [1, 1, 1]⟩ ⟨1, [1, 1, 1], [1, 1, 1]⟩ ⟨2, [2, 1, 1, 1], [1, 1, 1, 1]⟩ (memOf [1, 2, 3, 4]) = .throw :=
  C209_two _ _ _ rfl rfl rfl rfl rfl rfl (Or.inl (by decide)) _

/-- Two batches against one. -/
example : conv2sb ⟨0, [2, 1, 1, 1, 1], [1, 1, 1, 1, 1]⟩ ⟨2, [1, 1, 1, 1, 1], [1, 1, 1, 1, 1]⟩ 1 [(0, 0, (3 : Int))] 1 1 (memOf [0, 0, 1]) =
    .throw := C209_sparse_batches _ _ rfl rfl _ _ _ _ (Or.inl (by decide)) _

end RConv
end Cnine
