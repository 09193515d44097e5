import Mathlib.Algebra.BigOperators.Group.Finset.Basic
import Mathlib.Algebra.BigOperators.Ring.Finset
import Mathlib.Algebra.BigOperators.Intervals
import Mathlib.Algebra.BigOperators.Fin
import Mathlib.Algebra.Order.Field.Basic
import Mathlib.Algebra.Order.BigOperators.Ring.Finset
import Mathlib.Tactic.Ring
import Mathlib.Tactic.Linarith
import Mathlib.Tactic.FieldSimp
import Verif.Model.Spaces
import Verif.Spec.Spaces
import Verif.Props.Reduce
import Verif.Lemmas.TFunctions
import Verif.Lemmas.TProgram

/-! # Lemmas on column spaces -/

namespace Cnine
namespace Space

open Finset

variable {α : Type}

/-! ### vectors -/

section ring
variable [CommRing α]

theorem ip_comm (n : Nat) (f g : Nat → α) : ip n f g = ip n g f := sum_congr rfl fun k _ => mul_comm _ _

theorem ip_congr {n : Nat} {f f' g g' : Nat → α} (h : ∀ k, k < n → f k = f' k) (h' : ∀ k, k < n → g k = g' k) :
    ip n f g = ip n f' g' := sum_congr rfl fun k hk => by rw [h k (mem_range.1 hk), h' k (mem_range.1 hk)]

theorem ip_sub_mul (n : Nat) (f b g : Nat → α) (c : α) : ip n (fun k => f k - c * b k) g = ip n f g - c * ip n b g := by
  simp only [ip, mul_sum, ← sum_sub_distrib]
  exact sum_congr rfl fun k _ => by ring

theorem ip_mul (n : Nat) (f g : Nat → α) (c : α) : ip n (fun k => c * f k) g = c * ip n f g := by
  simp only [ip, mul_sum]
  exact sum_congr rfl fun k _ => by ring

/-- What `takeOff` makes of a vector. -/
def off (n : Nat) (B : Nat → Nat → α) (f : Nat → α) : Nat → Nat → α
  | 0 => f
  | j + 1 => fun k => off n B f j k - ip n (off n B f j) (B j) * B j k

theorem off_ortho {n j : Nat} {B : Nat → Nat → α} (hB : Ortho n j B) (f : Nat → α) : ∀ i, i ≤ j → ∀ a, a < i →
    ip n (off n B f i) (B a) = 0 := by
  intro i
  induction i with
  | zero => intro _ a ha; omega
  | succ i ih =>
    intro hi a ha
    simp only [off]
    rw [ip_sub_mul]
    by_cases e : a = i
    · subst e
      rw [hB a a (by omega) (by omega)]; simp
    · rw [ih (by omega) a (by omega), hB i a (by omega) (by omega), if_neg (by omega)]; simp

theorem off_comb (n : Nat) (B : Nat → Nat → α) (f : Nat → α) (j : Nat) (k : Nat) :
    off n B f j k = f k - comb j (fun i => ip n (off n B f i) (B i)) B k := by
  induction j with
  | zero => simp [off, comb]
  | succ j ih =>
    simp only [off, comb, sum_range_succ]
    rw [ih]; simp only [comb]; ring

theorem off_congr {n : Nat} {B B' : Nat → Nat → α} {f f' : Nat → α} : ∀ j, (∀ i k, i < j → k < n → B i k = B' i k) →
    (∀ k, k < n → f k = f' k) → ∀ k, k < n → off n B f j k = off n B' f' j k := by
  intro j
  induction j with
  | zero => intro _ h k hk; exact h k hk
  | succ j ih =>
    intro hB hf k hk
    have := ih (fun i k hi hk => hB i k (by omega) hk) hf
    simp only [off]
    rw [this k hk, hB j k (by omega) hk, ip_congr this fun k hk => hB j k (by omega) hk]

end ring

/-! ### memory -/

/-- The view `col(i)` returns. -/
def colV (v : View) (s0 s1 n i : Nat) : View := ⟨v.off + s1 * i, [n], [s0]⟩

theorem cell2 {v : View} {s0 s1 : Nat} (hs : v.strides = [s0, s1]) (k i : Nat) : v.cell [k, i] = v.off + (s0 * k + s1 * i) := by
  simp [View.cell, hs, dot]

theorem cell1 (v : View) (s0 s1 n k i : Nat) (hs : v.strides = [s0, s1]) : (colV v s0 s1 n i).cell [k] = v.cell [k, i] := by
  rw [cell2 hs]; simp [View.cell, colV, dot]; omega

theorem col_ok {v : View} {s0 s1 n d : Nat} (hd : v.dims = [n, d]) (hs : v.strides = [s0, s1]) {i : Nat} (hi : i < d) :
    v.col (i : Int) = .ok (colV v s0 s1 n i) := by
  unfold View.col
  rw [hd, hs]
  have h : ((i : Int) < (d : Int)) := by omega
  simp only
  rw [decide_eq_true h, Res.assrt_true, Res.ok_bind, View.shift, if_pos (by positivity), Res.ok_bind]
  congr 1

theorem inRange_one {ix : List Nat} {n : Nat} : InRange ix [n] ↔ ∃ k, k < n ∧ ix = [k] := by
  constructor
  · intro h
    match ix, h with
    | [], h => have := h.length; simp at this
    | [k], h => exact ⟨k, (inRange_cons.1 h).1, rfl⟩
    | _ :: _ :: _, h => have := h.length; simp at this
  · rintro ⟨k, h, rfl⟩; exact inRange_cons.2 ⟨h, inRange_nil⟩

theorem inRange_two {ix : List Nat} {n d : Nat} : InRange ix [n, d] ↔ ∃ k i, k < n ∧ i < d ∧ ix = [k, i] := by
  constructor
  · intro h
    match ix, h with
    | [], h => have := h.length; simp at this
    | a :: l, h =>
      obtain ⟨h1, h2⟩ := inRange_cons.1 h
      obtain ⟨i, hi, rfl⟩ := inRange_one.1 h2
      exact ⟨a, i, h1, hi, rfl⟩
  · rintro ⟨k, i, h, h', rfl⟩; exact inRange_cons.2 ⟨h, inRange_one.2 ⟨i, h', rfl⟩⟩

theorem colV_WF (v : View) (s0 s1 n i : Nat) : (colV v s0 s1 n i).WF := rfl

theorem sum_one [AddCommMonoid α] (n : Nat) (f : List Nat → α) : ((allIndices [n]).map f).sum = ∑ k ∈ range n, f [k] := by
  have : allIndices [n] = (List.range n).map fun k => [k] := by
    simp only [allIndices, List.map_cons, List.map_nil]
    induction List.range n with
    | nil => rfl
    | cons a l ih => simp [ih]
  rw [this, List.map_map, Finset.sum_range]
  rw [← List.sum_ofFn]
  congr 1
  apply List.ext_getElem
  · simp
  · intro i h1 h2; simp

/-- A distinct matrix view has distinct columns. -/
theorem col_distinct {v : View} {s0 s1 n d : Nat} (hd : v.dims = [n, d]) (hs : v.strides = [s0, s1]) (hv : v.Distinct) {i : Nat}
    (hi : i < d) : (colV v s0 s1 n i).Distinct := by
  intro ix jx h1 h2 e
  obtain ⟨k, hk, rfl⟩ := inRange_one.1 h1
  obtain ⟨l, hl, rfl⟩ := inRange_one.1 h2
  rw [cell1 _ _ _ _ _ _ hs, cell1 _ _ _ _ _ _ hs] at e
  have := hv [k, i] [l, i] (by rw [hd]; exact inRange_two.2 ⟨k, i, hk, hi, rfl⟩) (by rw [hd]; exact inRange_two.2 ⟨l, i, hl, hi, rfl⟩) e
  simp at this
  rw [this]

theorem norm2_ok [CommRing α] {v : View} {s0 s1 n d : Nat} (hd : v.dims = [n, d]) (hs : v.strides = [s0, s1]) (hv : v.Distinct) {i : Nat}
    (hi : i < d) (m : Buf α) (f : Nat → α) (hf : ∀ k, k < n → m (v.cell [k, i]) = some (f k)) :
    norm2 (fun a => a) (colV v s0 s1 n i) m = .ok (ip n f f) := by
  rcases Nat.eq_zero_or_pos n with rfl | hn
  · unfold norm2 View.reduce
    obtain ⟨c, hc⟩ := isContiguous_ok (colV v s0 s1 0 i) rfl
    rw [hc, Res.ok_bind]
    cases c with
    | true => rfl
    | false =>
      rw [if_neg (by simp), forEachIx_eq (colV v s0 s1 0 i) (colV_WF v s0 s1 0 i) (by simp [colV])]
      rfl
  · have key := C19_norm2_partial (colV v s0 s1 n i) rfl (by
      intro x hx h0
      simp [colV] at hx
      subst hx
      simp only at h0 ⊢
      by_contra h1
      have := hv [0, i] [1, i] (by rw [hd]; exact inRange_two.2 ⟨0, i, hn, hi, rfl⟩)
        (by rw [hd]; exact inRange_two.2 ⟨1, i, by omega, hi, rfl⟩) (by rw [cell2 hs, cell2 hs, h0])
      simp at this) m (fun ix => f (ix.headD 0)) (by
        intro ix hix
        obtain ⟨k, hk, rfl⟩ := inRange_one.1 hix
        rw [View.val, cell1 _ _ _ _ _ _ hs]
        exact hf k hk)
    unfold View.norm2View at key
    rw [norm2, key]
    show Res.ok (((allIndices [n]).map _).sum) = _
    rw [sum_one]; rfl

theorem inp_ok [CommRing α] {v w : View} {s0 s1 t0 t1 n d e : Nat} (hs : v.strides = [s0, s1]) (ht : w.strides = [t0, t1]) {i j : Nat}
    (m : Buf α) (f g : Nat → α) (hf : ∀ k, k < n → m (v.cell [k, i]) = some (f k))
    (hg : ∀ k, k < n → m (w.cell [k, j]) = some (g k)) :
    inp (fun a => a) (colV v s0 s1 n i) (colV w t0 t1 n j) m = .ok (ip n f g) := by
  unfold inp
  have hd : (colV v s0 s1 n i).dims = (colV w t0 t1 n j).dims := rfl
  rw [decide_eq_true hd, Res.assrt_true, Res.ok_bind]
  rw [inpWith_eq (fun a b => a * b) (colV v s0 s1 n i) (colV w t0 t1 n j) rfl rfl rfl m (fun ix => f (ix.headD 0)) (fun ix => g (ix.headD 0))
    (by
      intro ix hix
      obtain ⟨k, hk, rfl⟩ := inRange_one.1 hix
      rw [View.val, cell1 _ _ _ _ _ _ hs]
      exact hf k hk)
    (by
      intro ix hix
      obtain ⟨k, hk, rfl⟩ := inRange_one.1 hix
      rw [View.val, cell1 _ _ _ _ _ _ ht]
      exact hg k hk)]
  show Res.ok (((allIndices [n]).map _).sum) = _
  rw [sum_one]; rfl

/-- Combining a column with a column of another matrix changes only the first column. -/
theorem scaled_ok {v w : View} {s0 s1 t0 t1 n d e : Nat} (hd : v.dims = [n, d]) (hs : v.strides = [s0, s1]) (hdw : w.dims = [n, e])
    (ht : w.strides = [t0, t1]) (hv : v.Distinct) (hvw : v.Apart w) {i j : Nat} (hi : i < d) (hj : j < e) (op : α → α → α) (m : Buf α)
    {F G : Nat → Nat → α} (hF : Cols m v n d F) (hG : Cols m w n e G) :
    ∃ m', View.addScaled op (colV v s0 s1 n i) (colV w t0 t1 n j) m = .ok m' ∧
      Cols m' v n d (fun a k => if a = i then op (F i k) (G j k) else F a k) ∧ Cols m' w n e G ∧
      ∀ c, (∀ k, k < n → c ≠ v.cell [k, i]) → m' c = m c := by
  have hin : ∀ {k a}, k < n → a < d → InRange [k, a] v.dims := fun h h' => by rw [hd]; exact inRange_two.2 ⟨_, _, h, h', rfl⟩
  have hin' : ∀ {k a}, k < n → a < e → InRange [k, a] w.dims := fun h h' => by rw [hdw]; exact inRange_two.2 ⟨_, _, h, h', rfl⟩
  obtain ⟨m', h1, h2, h3⟩ := C17_add_scaled op (colV v s0 s1 n i) (colV w t0 t1 n j) rfl rfl rfl (col_distinct hd hs hv hi)
    (by
      intro ix jx h1 h2 h
      obtain ⟨k, hk, rfl⟩ := inRange_one.1 h1
      obtain ⟨l, hl, rfl⟩ := inRange_one.1 h2
      rw [cell1 _ _ _ _ _ _ hs, cell1 _ _ _ _ _ _ ht] at h
      exact absurd h (hvw _ _ (hin hk hi) (hin' hl hj)))
    m (by
      intro ix hix
      obtain ⟨k, hk, rfl⟩ := inRange_one.1 hix
      rw [cell1 _ _ _ _ _ _ hs, hF k i hk hi]; rfl)
    (by
      intro ix hix
      obtain ⟨k, hk, rfl⟩ := inRange_one.1 hix
      rw [cell1 _ _ _ _ _ _ ht, hG k j hk hj]; rfl)
  have h3' : ∀ c, (∀ k, k < n → c ≠ v.cell [k, i]) → m' c = m c := by
    intro c hc
    apply h3
    intro ix hix
    obtain ⟨k, hk, rfl⟩ := inRange_one.1 hix
    rw [cell1 _ _ _ _ _ _ hs]
    exact hc k hk
  refine ⟨m', h1, ?_, ?_, h3'⟩
  · intro k a hk ha
    by_cases e : a = i
    · subst e
      have := h2 [k] (inRange_one.2 ⟨k, hk, rfl⟩)
      rw [cell1 _ _ _ _ _ _ hs] at this
      rw [this]
      simp only [View.val, cell1 _ _ _ _ _ _ hs, cell1 _ _ _ _ _ _ ht, hF k a hk ha, hG k j hk hj, if_pos]
      rfl
    · simp only [if_neg e]
      rw [h3', hF k a hk ha]
      intro l hl h
      have := hv _ _ (hin hk ha) (hin hl hi) h
      simp at this
      exact e this.2
  · intro k a hk ha
    rw [h3', hG k a hk ha]
    intro l hl h
    exact hvw _ _ (hin hl hi) (hin' hk ha) h.symm

/-- A loop whose body keeps an invariant. -/
theorem loop_inv {σ : Type} (P : Nat → σ → Prop) {body : Nat → σ → Res σ} {s : σ} (h0 : P 0 s) : ∀ (n : Nat),
    (∀ i s, i < n → P i s → ∃ s', body i s = .ok s' ∧ P (i + 1) s') → ∃ s', loop n s body = .ok s' ∧ P n s' := by
  intro n
  induction n with
  | zero => intro _; exact ⟨s, rfl, h0⟩
  | succ n ih =>
    intro h
    obtain ⟨s1, e1, h1⟩ := ih fun i s hi => h i s (by omega)
    obtain ⟨s2, e2, h2⟩ := h n s1 (by omega) h1
    exact ⟨s2, by rw [loop_snoc, e1, Res.ok_bind, e2], h2⟩

theorem takeOff_ok [CommRing α] {v w : View} {s0 s1 t0 t1 n d e : Nat} (hd : v.dims = [n, d]) (hs : v.strides = [s0, s1])
    (hdw : w.dims = [n, e]) (ht : w.strides = [t0, t1]) (hv : v.Distinct) (hvw : v.Apart w) {i nc : Nat} (hi : i < d) (hnc : nc ≤ e)
    (m : Buf α) {F G : Nat → Nat → α} (hF : Cols m v n d F) (hG : Cols m w n e G) :
    ∃ m', takeOff (fun a => a) w (colV v s0 s1 n i) nc m = .ok m' ∧
      Cols m' v n d (fun a k => if a = i then off n G (F i) nc k else F a k) ∧ Cols m' w n e G ∧
      ∀ c, (∀ k, k < n → c ≠ v.cell [k, i]) → m' c = m c := by
  refine loop_inv (fun j m' => Cols m' v n d (fun a k => if a = i then off n G (F i) j k else F a k) ∧ Cols m' w n e G ∧
      ∀ c, (∀ k, k < n → c ≠ v.cell [k, i]) → m' c = m c) ⟨?_, hG, fun c _ => rfl⟩ nc fun j s hj hP => ?_
  · intro k a hk ha
    rw [hF k a hk ha]
    by_cases h : a = i
    · simp [h, off]
    · simp [h]
  · obtain ⟨h1, h2, h3⟩ := hP
    rw [col_ok hdw ht (by omega), Res.ok_bind]
    rw [inp_ok (d := d) (e := e) hs ht s (off n G (F i) j) (G j) (fun k hk => by simpa using h1 k i hk hi)
      (fun k hk => h2 k j hk (by omega)), Res.ok_bind]
    obtain ⟨m', e1, e2, e3, e4⟩ := scaled_ok hd hs hdw ht hv hvw hi (show j < e by omega)
      (fun a b => a - ip n (off n G (F i) j) (G j) * b) s h1 h2
    refine ⟨m', ?_, fun k a hk ha => ?_, e3, fun c hc => by rw [e4 c hc, h3 c hc]⟩
    · rw [subTimes]
      rw [decide_eq_true (show asize (colV v s0 s1 n i).dims = asize (colV w t0 t1 n j).dims from rfl), Res.assrt_true, Res.ok_bind, e1]
    · rw [e2 k a hk ha]
      by_cases h : a = i
      · simp [h, off]
      · simp [h]

theorem step_ok [Field α] {v w : View} {s0 s1 t0 t1 n d e : Nat} (root : α → α) (big : α → Bool) (hd : v.dims = [n, d])
    (hs : v.strides = [s0, s1]) (hdw : w.dims = [n, e]) (ht : w.strides = [t0, t1]) (hv : v.Distinct) (hw : w.Distinct)
    (hvw : v.Apart w) {i nc : Nat} (hi : i < d) (hnc : nc < e) (m : Buf α) {F G : Nat → Nat → α} (hF : Cols m v n d F)
    (hG : Cols m w n e G) {r : Nat → α} (hr : r = off n G (F i) nc) :
    ∃ m', colStep (fun a => a) root big w v i (nc, m) = .ok (if big (root (ip n r r)) then nc + 1 else nc, m') ∧
      Cols m' v n d (fun a k => if a = i then r k else F a k) ∧
      Cols m' w n e (fun a k => if big (root (ip n r r)) = true ∧ a = nc then G nc k + 1 / root (ip n r r) * r k else G a k) ∧
      ∀ c, (∀ k, k < n → c ≠ v.cell [k, i]) → (∀ k, k < n → c ≠ w.cell [k, nc]) → m' c = m c := by
  subst hr
  obtain ⟨m1, e1, a1, a2, a3⟩ := takeOff_ok hd hs hdw ht hv hvw hi (show nc ≤ e by omega) m hF hG
  unfold colStep
  rw [col_ok hd hs hi, Res.ok_bind]
  dsimp only
  rw [e1, Res.ok_bind, norm2_ok hd hs hv hi m1 (off n G (F i) nc) (fun k hk => by simpa using a1 k i hk hi), Res.ok_bind]
  by_cases hb : big (root (ip n (off n G (F i) nc) (off n G (F i) nc))) = true
  · rw [if_pos hb, if_pos hb, col_ok hdw ht hnc, Res.ok_bind]
    obtain ⟨m', e2, b1, b2, b3⟩ := scaled_ok hdw ht hd hs hw (fun ix jx h1 h2 h => hvw jx ix h2 h1 h.symm) hnc hi
      (fun a b => a + 1 / root (ip n (off n G (F i) nc) (off n G (F i) nc)) * b) m1 a2 a1
    refine ⟨m', ?_, b2, fun k a hk ha => ?_, fun c h1 h2 => by rw [b3 c h2, a3 c h1]⟩
    · rw [TFun.addTimes]
      rw [decide_eq_true (show asize (colV w t0 t1 n nc).dims = asize (colV v s0 s1 n i).dims from rfl), Res.assrt_true, Res.ok_bind, e2, Res.ok_bind]
    · rw [b1 k a hk ha]
      simp [hb]
  · rw [if_neg hb, if_neg hb]
    refine ⟨m1, rfl, a1, fun k a hk ha => ?_, fun c h1 _ => a3 c h1⟩
    rw [a2 k a hk ha]
    simp [hb]

end Space
end Cnine
