import Verif.Lemmas.HighViews
import Mathlib.Data.List.GetD
import Mathlib.Algebra.BigOperators.Ring.List

/-!
# Views with four to seven axes, views of any rank, accessors

C337 entries, slices and blocks of real views · C338 entries and slices of complex views · C339 the last slice of `Ctensor6_view` ·
C340 constructors · C341 constructors of `Rtensor7_view` and `Ctensor6_view` · C342 fused axes · C343 split axes · C344 sums of views ·
C345 conversions to tensors · C346 conversion of `Rtensor7_view` · C347 reductions · C348 reductions into a view · C349 broadcasts.
-/

namespace Cnine

open HV

variable {α : Type}

/-! ### C337 entries, slices and blocks -/

theorem C337_get (v : HV) (m : Buf α) (X : List Nat → α) (hX : v.Has m X) (ix : List Nat) (hi : InRange ix v.ns) : v.get ix m = .ok (X ix) := by
  rw [HV.get, cell_eq, read_ok (hX ix hi)]

theorem set_core {v : HV} (hv : v.Inj) {m : Buf α} {X : List Nat → α} (hX : v.Has m X) {ix : List Nat} (hi : InRange ix v.ns) (a : α) :
    ∃ m', m.write (v.cell ix) a = .ok m' ∧ m' (v.at' ix) = some a ∧ (∀ jx, InRange jx v.ns → jx ≠ ix → m' (v.at' jx) = some (X jx)) ∧
      ∀ c, ¬ v.Cov c → m' c = m c := by
  rw [cell_eq]
  refine ⟨_, write_ok (hX ix hi) a, by simp, fun jx hj hne => ?_, fun c hc => ?_⟩
  · rw [if_neg fun e => hne (hv _ hj _ hi e)]
    exact hX jx hj
  · rw [if_neg fun e => hc ⟨ix, hi, e⟩]

/-- `set` writes one entry and nothing else. -/
theorem C337_set (v : HV) (hv : v.Inj) (m : Buf α) (X : List Nat → α) (hX : v.Has m X) (ix : List Nat) (hi : InRange ix v.ns) (a : α) :
    ∃ m', v.set ix a m = .ok m' ∧ m' (v.at' ix) = some a ∧ (∀ jx, InRange jx v.ns → jx ≠ ix → m' (v.at' jx) = some (X jx)) ∧
      ∀ c, ¬ v.Cov c → m' c = m c := set_core hv hX hi a

/-- `inc` adds to one entry. -/
theorem C337_inc [Add α] (v : HV) (hv : v.Inj) (m : Buf α) (X : List Nat → α) (hX : v.Has m X) (ix : List Nat) (hi : InRange ix v.ns) (a : α) :
    ∃ m', v.inc ix a m = .ok m' ∧ m' (v.at' ix) = some (X ix + a) ∧ (∀ jx, InRange jx v.ns → jx ≠ ix → m' (v.at' jx) = some (X jx)) ∧
      ∀ c, ¬ v.Cov c → m' c = m c := by
  rw [HV.inc, incCell_ok (by rw [cell_eq]; exact hX ix hi)]
  exact set_core hv hX hi _

/-- A slice has the other axes, and its entries are the entries of the view with `i` put back at axis `k`. -/
theorem C337_slice (v : HV) (hl : v.ns.length = v.ss.length) (k i : Nat) (hk : k < v.ns.length) :
    (v.slice k i).ns = v.ns.take k ++ v.ns.drop (k + 1) ∧ (v.slice k i).ns.length = (v.slice k i).ss.length ∧
    (∀ ix, ix.length + 1 = v.ns.length → (v.slice k i).at' ix = v.at' (ix.insertIdx k i)) ∧
    ∀ ix, InRange ix (v.slice k i).ns → i < v.ns.getD k 0 → InRange (ix.insertIdx k i) v.ns := by
  have e1 := erase_len hk
  refine ⟨List.eraseIdx_eq_take_drop_succ _ _, ?_, fun ix hi => slice_at hl hk i hi, fun ix hi h => ?_⟩
  · show (v.ns.eraseIdx k).length = (v.ss.eraseIdx k).length
    have := erase_len (l := v.ss) (k := k) (by omega)
    omega
  · have hi : InRange ix (v.ns.eraseIdx k) := hi
    exact (inRange_insert_iff i k _ _ hk (by rw [hi.length, e1])).2 ⟨h, hi⟩

theorem C337_slice_entries (v : HV) (hl : v.ns.length = v.ss.length) (k i : Nat) (hk : k < v.ns.length) (hi : i < v.ns.getD k 0) (m : Buf α)
    (X : List Nat → α) (hX : v.Has m X) : (v.slice k i).Has m fun ix => X (ix.insertIdx k i) := by
  obtain ⟨-, -, h2, h3⟩ := C337_slice v hl k i hk
  intro ix hix
  rw [h2 ix (by have : InRange ix (v.ns.eraseIdx k) := hix; rw [this.length, erase_len hk])]
  exact hX _ (h3 ix hix hi)

/-- Two axes at once: the slice of a slice. -/
theorem C337_slice2 (v : HV) (k l i j : Nat) (hkl : k < l) : v.slice2 k l i j = (v.slice l j).slice k i := by
  have : (v.ss.eraseIdx l).getD k 0 = v.ss.getD k 0 := by
    simp only [List.getD_eq_getElem?_getD, List.getElem?_eraseIdx]
    rw [if_pos hkl]
  simp only [HV.slice2, HV.slice, this, HV.mk.injEq, and_true]
  omega

theorem C337_slice2_entries (v : HV) (hl : v.ns.length = v.ss.length) (k l i j : Nat) (hkl : k < l) (hk : l < v.ns.length) (hi : i < v.ns.getD k 0)
    (hj : j < v.ns.getD l 0) (m : Buf α) (X : List Nat → α) (hX : v.Has m X) :
    (v.slice2 k l i j).Has m fun ix => X ((ix.insertIdx k i).insertIdx l j) := by
  rw [C337_slice2 v k l i j hkl]
  refine C337_slice_entries (v.slice l j) (C337_slice v hl l j hk).2.1 k i ?_ ?_ m (fun ix => X (ix.insertIdx l j)) (C337_slice_entries v hl l j hk hj m X hX)
  · show k < (v.ns.eraseIdx l).length
    have := erase_len hk
    omega
  · show i < (v.ns.eraseIdx l).getD k 0
    simp only [List.getD_eq_getElem?_getD, List.getElem?_eraseIdx] at hi ⊢
    rwa [if_pos hkl]

theorem block_at : ∀ (ss ix jx : List Nat), ix.length = ss.length → jx.length = ss.length → dot ss (List.zipWith (· + ·) ix jx) = dot ss ix + dot ss jx
  | [], _, _, _, _ => by simp
  | s :: ss, i :: ix, j :: jx, h1, h2 => by
    simp only [List.zipWith_cons_cons, dot_cons]
    rw [block_at ss ix jx (by simpa using h1) (by simpa using h2)]
    ring

/-- A block starts at `ix`. -/
theorem C337_block (v : HV) (ix ms : List Nat) (h : ix.length = v.ss.length) :
    (v.block ix ms).ns = ms ∧ ∀ jx, jx.length = v.ss.length → (v.block ix ms).at' jx = v.at' (List.zipWith (· + ·) ix jx) := by
  refine ⟨rfl, fun jx hj => ?_⟩
  rw [at', at', block_at _ _ _ h hj]
  simp only [HV.block, hoffs_eq]
  omega

example : ((HV.mk 0 [2, 2, 2, 3] [12, 6, 3, 1]).slice 2 1).get [1, 0, 2] (Buf.ofList (List.range 24)) = .ok 17 ∧
    ((HV.mk 0 [2, 2, 2, 3] [12, 6, 3, 1]).slice2 1 2 1 1).get [1, 2] (Buf.ofList (List.range 24)) = .ok 23 ∧
    ((HV.mk 0 [2, 2, 2, 3] [12, 6, 3, 1]).block [1, 0, 1, 1] [1, 1, 1, 2]).get [0, 0, 0, 1] (Buf.ofList (List.range 24)) = .ok 17 := ⟨rfl, rfl, rfl⟩

/-! ### C338 complex views -/

theorem C338_get (v : CHV) (m : Buf α) (X : List Nat → Cx α) (hX : v.Has m X) (ix : List Nat) (hi : InRange ix v.ns) : v.get ix m = .ok (X ix) := by
  rw [CHV.get, hoffs_eq, getC_ok (hX ix hi).1 (hX ix hi).2]

theorem cset_core {v : CHV} (hv : v.Sep) {m : Buf α} {X : List Nat → Cx α} (hX : v.Has m X) {ix : List Nat} (hi : InRange ix v.ns) (a : Cx α) :
    ∃ m', setC (v.arr + dot v.ss ix) (v.arrc + dot v.ss ix) a m = .ok m' ∧ (m' (v.arr + dot v.ss ix) = some a.re ∧ m' (v.arrc + dot v.ss ix) = some a.im) ∧
      (∀ jx, InRange jx v.ns → jx ≠ ix → m' (v.arr + dot v.ss jx) = some (X jx).re ∧ m' (v.arrc + dot v.ss jx) = some (X jx).im) ∧
      ∀ c, (∀ jx, InRange jx v.ns → c ≠ v.arr + dot v.ss jx ∧ c ≠ v.arrc + dot v.ss jx) → m' c = m c := by
  obtain ⟨h1, h2⟩ := hX ix hi
  have hne := (hv ix hi ix hi).2
  refine ⟨_, setC_ok (by rw [h1]; rfl) (by rw [h2]; rfl) hne a, ⟨by simp, ?_⟩, fun jx hj hn => ?_, fun c hc => ?_⟩
  · rw [if_neg hne.symm, if_pos rfl]
  · obtain ⟨g1, g2⟩ := hX jx hj
    have e1 : dot v.ss jx ≠ dot v.ss ix := fun e => hn ((hv jx hj ix hi).1 e)
    have e2 := (hv jx hj ix hi).2
    have e3 := (hv ix hi jx hj).2.symm
    rw [if_neg (by omega), if_neg (by omega), if_neg (by omega), if_neg (by omega)]
    exact ⟨g1, g2⟩
  · obtain ⟨e1, e2⟩ := hc ix hi
    rw [if_neg e1, if_neg e2]

theorem C338_set (v : CHV) (hv : v.Sep) (m : Buf α) (X : List Nat → Cx α) (hX : v.Has m X) (ix : List Nat) (hi : InRange ix v.ns) (a : Cx α) :
    ∃ m', v.set ix a m = .ok m' ∧ (m' (v.arr + dot v.ss ix) = some a.re ∧ m' (v.arrc + dot v.ss ix) = some a.im) ∧
      (∀ jx, InRange jx v.ns → jx ≠ ix → m' (v.arr + dot v.ss jx) = some (X jx).re ∧ m' (v.arrc + dot v.ss jx) = some (X jx).im) ∧
      ∀ c, (∀ jx, InRange jx v.ns → c ≠ v.arr + dot v.ss jx ∧ c ≠ v.arrc + dot v.ss jx) → m' c = m c := by
  rw [CHV.set, hoffs_eq]
  exact cset_core hv hX hi a

theorem C338_inc [Add α] (v : CHV) (hv : v.Sep) (m : Buf α) (X : List Nat → Cx α) (hX : v.Has m X) (ix : List Nat) (hi : InRange ix v.ns) (a : Cx α) :
    ∃ m', v.inc ix a m = .ok m' ∧
      (m' (v.arr + dot v.ss ix) = some ((X ix).re + a.re) ∧ m' (v.arrc + dot v.ss ix) = some ((X ix).im + a.im)) ∧
      (∀ jx, InRange jx v.ns → jx ≠ ix → m' (v.arr + dot v.ss jx) = some (X jx).re ∧ m' (v.arrc + dot v.ss jx) = some (X jx).im) ∧
      ∀ c, (∀ jx, InRange jx v.ns → c ≠ v.arr + dot v.ss jx ∧ c ≠ v.arrc + dot v.ss jx) → m' c = m c := by
  rw [CHV.inc, hoffs_eq, incC_ok (hX ix hi).1 (hX ix hi).2 (hv ix hi ix hi).2]
  exact cset_core hv hX hi _

theorem C338_slice_entries (v : CHV) (hl : v.ns.length = v.ss.length) (k i : Nat) (hk : k < v.ns.length) (hi : i < v.ns.getD k 0) (m : Buf α)
    (X : List Nat → Cx α) (hX : v.Has m X) :
    (v.slice k i).ns = v.ns.take k ++ v.ns.drop (k + 1) ∧ (v.slice k i).Has m fun ix => X (ix.insertIdx k i) := by
  refine ⟨List.eraseIdx_eq_take_drop_succ _ _, fun ix hix => ?_⟩
  have hix : InRange ix (v.ns.eraseIdx k) := hix
  have hlen : ix.length + 1 = v.ns.length := by rw [hix.length, erase_len hk]
  have := hX _ ((inRange_insert_iff i k _ _ hk hlen).2 ⟨hi, hix⟩)
  rw [dot_insert i k v.ss ix (by omega) (by omega), ← Nat.add_assoc, ← Nat.add_assoc] at this
  exact this

example : ((CHV.mk 0 1 [2, 1, 1, 2, 2] [8, 8, 8, 4, 2]).slice 3 1).get [1, 0, 0, 1] (Buf.ofList (List.range 16)) = .ok ⟨14, 15⟩ := rfl

/-! ### C339 `Ctensor6_view::slice5` -/

/-- Missing: `i > 0` when the last two strides differ, which is so for any tensor with more than one entry along the last axis. -/
theorem C339_slice5_partial (v : CHV) (hn : v.ns.length = 6) (hs : v.ss.length = 6) (i : Nat) (hi : i < v.ns.getD 5 0) (h : i = 0 ∨ v.ss.getD 4 0 = v.ss.getD 5 0)
    (m : Buf α) (X : List Nat → Cx α) (hX : v.Has m X) : (v.slice5of6 i).Has m fun ix => X (ix.insertIdx 5 i) := by
  have : v.slice5of6 i = v.slice 5 i := by
    rcases h with rfl | h
    · simp [CHV.slice5of6, CHV.slice]
    · simp only [CHV.slice5of6, CHV.slice, h]
  rw [this]
  exact (C338_slice_entries v (by omega) 5 i (by omega) hi m X hX).2

theorem C339_slice5_fails : ∃ (v : CHV) (m : Buf Int) (X : List Nat → Cx Int), v.ns.length = 6 ∧ v.ss.length = 6 ∧ v.Sep ∧ v.Has m X ∧
    1 < v.ns.getD 5 0 ∧ (v.slice5of6 1).get [0, 0, 0, 0, 0] m ≠ .ok (X [0, 0, 0, 0, 0, 1]) ∧ ∃ w : CHV, w.slice5of6 1 ≠ w.slice 5 1 := by
  have hr : ∀ ix, InRange ix [1, 1, 1, 1, 2, 2] ↔ ∃ a b, a < 2 ∧ b < 2 ∧ ix = [0, 0, 0, 0, a, b] := by
    intro ix
    constructor
    · intro h
      match ix, h.length with
      | [p, q, r, s, a, b], _ =>
        simp only [inRange_cons] at h
        obtain ⟨h1, h2, h3, h4, h5, h6, -⟩ := h
        exact ⟨a, b, h5, h6, by simp; omega⟩
    · rintro ⟨a, b, ha, hb, rfl⟩
      simp only [inRange_cons]
      exact ⟨by omega, by omega, by omega, by omega, ha, hb, inRange_nil⟩
  refine ⟨⟨0, 1, [1, 1, 1, 1, 2, 2], [8, 8, 8, 8, 4, 2]⟩, fun c => if c < 8 then some c else none,
    fun ix => ⟨(4 * ix.getD 4 0 + 2 * ix.getD 5 0 : Nat), (4 * ix.getD 4 0 + 2 * ix.getD 5 0 + 1 : Nat)⟩, rfl, rfl, ?_, ?_, by decide, ?_,
    ⟨0, 1, [1, 1, 1, 1, 2, 2], [8, 8, 8, 8, 4, 2]⟩, by decide⟩
  · intro ix hi jx hj
    obtain ⟨a, b, ha, hb, rfl⟩ := (hr ix).1 hi
    obtain ⟨c, d, hc, hd, rfl⟩ := (hr jx).1 hj
    simp [dot]
    omega
  · intro ix hi
    obtain ⟨a, b, ha, hb, rfl⟩ := (hr ix).1 hi
    simp only [dot, List.zip_cons_cons, List.zip_nil_right, List.map_cons, List.map_nil, List.sum_cons, List.sum_nil]
    rw [if_pos (by omega), if_pos (by omega)]
    simp
    omega
  · simp [CHV.slice5of6, CHV.get, hoffs, getC, Buf.read]

/-! ### C340 constructors -/

/-- The sizes and strides are those given; a different number of axes is refused. -/
theorem C340_real (arr : Nat) (dims strides : List Nat) :
    (dims.length = 4 → strides.length = 4 → HV.of4 arr dims strides = .ok ⟨arr, dims, strides⟩) ∧
    (dims.length = 5 → strides.length = 5 → HV.of5 arr dims strides = .ok ⟨arr, dims, strides⟩) ∧
    (dims.length = 6 → strides.length = 6 → HV.of6 arr dims strides = .ok ⟨arr, dims, strides⟩) := by
  refine ⟨fun h1 h2 => ?_, fun h1 h2 => ?_, fun h1 h2 => ?_⟩ <;>
  · simp only [HV.of4, HV.of5, HV.of6, HV.ofDims, firstK, h1, h2, decide_true, Res.assrt_true, Res.ok_bind, le_refl, if_true]
    rw [List.take_of_length_le (by omega), List.take_of_length_le (by omega)]

theorem C340_real_refused (arr : Nat) (dims strides : List Nat) :
    (dims.length ≠ 4 → HV.of4 arr dims strides = .throw) ∧ (dims.length ≠ 5 → HV.of5 arr dims strides = .throw) ∧
    (dims.length ≠ 6 → HV.of6 arr dims strides = .throw) := by
  refine ⟨fun h => ?_, fun h => ?_, fun h => ?_⟩ <;> simp [HV.of4, HV.of5, HV.of6, HV.ofDims, h]

theorem C340_complex (arr coffs : Nat) (dims strides : List Nat) :
    (dims.length = 5 → strides.length = 5 → CHV.of5 arr coffs dims strides = .ok ⟨arr, arr + coffs, dims, strides⟩) ∧
    (dims.length ≠ 5 → CHV.of5 arr coffs dims strides = .throw) := by
  refine ⟨fun h1 h2 => ?_, fun h => by simp [CHV.of5, CHV.ofDims, h]⟩
  simp only [CHV.of5, CHV.ofDims, firstK, h1, h2, decide_true, Res.assrt_true, Res.ok_bind, le_refl, if_true]
  rw [List.take_of_length_le (by omega), List.take_of_length_le (by omega)]

example : HV.of4 7 [2, 3, 4, 5] [60, 20, 5, 1] = .ok ⟨7, [2, 3, 4, 5], [60, 20, 5, 1]⟩ := rfl

/-! ### C341 `Rtensor7_view` and `Ctensor6_view` -/

/-- The right number of axes is refused, for all sizes and strides. -/
theorem C341_refused_fails (arr coffs : Nat) (dims strides : List Nat) :
    (dims.length = 7 → HV.of7 arr dims strides = .throw) ∧ (dims.length = 6 → CHV.of6 arr coffs dims strides = .throw) := by
  refine ⟨fun h => ?_, fun h => ?_⟩ <;> simp [HV.of7, HV.ofDims, CHV.of6, CHV.ofDims, h]

/-- One axis fewer passes the check and reads past the end. -/
theorem C341_outside_fails (arr coffs : Nat) (dims strides : List Nat) :
    (dims.length = 6 → HV.of7 arr dims strides = .ub) ∧ (dims.length = 5 → CHV.of6 arr coffs dims strides = .ub) := by
  refine ⟨fun h => ?_, fun h => ?_⟩ <;> simp [HV.of7, HV.ofDims, CHV.of6, CHV.ofDims, firstK, h]

/-- No arguments make a view.  Missing: everything else. -/
theorem C341_never_partial (arr coffs : Nat) (dims strides : List Nat) (v : HV) (w : CHV) :
    HV.of7 arr dims strides ≠ .ok v ∧ CHV.of6 arr coffs dims strides ≠ .ok w := by
  constructor
  · by_cases h : dims.length = 6
    · rw [(C341_outside_fails arr coffs dims strides).1 h]; simp
    · simp [HV.of7, HV.ofDims, h]
  · by_cases h : dims.length = 5
    · rw [(C341_outside_fails arr coffs dims strides).2 h]; simp
    · simp [CHV.of6, CHV.ofDims, h]

example : HV.of7 0 [1, 1, 1, 1, 1, 1, 2] [2, 2, 2, 2, 2, 2, 1] = .throw ∧ HV.of7 0 [1, 1, 1, 1, 1, 2] [2, 2, 2, 2, 2, 1] = .ub := ⟨rfl, rfl⟩

/-! ### C342 fused axes -/

theorem hmerge_split (n1 n2 : Nat) : ∀ A B : List Nat, hmerge (A ++ n1 :: n2 :: B) A.length = A ++ n1 * n2 :: B
  | [], _ => rfl
  | a :: A, B => by simp [hmerge, hmerge_split n1 n2 A B]

theorem erase_split {β : Type} (a : β) : ∀ A B : List β, (A ++ a :: B).eraseIdx A.length = A ++ B
  | [], _ => rfl
  | _ :: A, B => by simp [erase_split a A B]

theorem split_pair (l : List Nat) (k : Nat) (h : k + 1 < l.length) : ∃ A B, l = A ++ l.getD k 0 :: l.getD (k + 1) 0 :: B ∧ A.length = k := by
  refine ⟨l.take k, l.drop (k + 2), ?_, by simp; omega⟩
  have e1 : l.drop k = l.getD k 0 :: l.drop (k + 1) := by
    rw [List.drop_eq_getElem_cons (by omega), List.getD_eq_getElem _ _ (by omega)]
  have e2 : l.drop (k + 1) = l.getD (k + 1) 0 :: l.drop (k + 2) := by
    rw [List.drop_eq_getElem_cons (by omega), List.getD_eq_getElem _ _ (by omega)]
  rw [← e2, ← e1, List.take_append_drop]

theorem fuse_dot (ss A B : List Nat) (n a b : Nat) (h : A.length + 1 < ss.length) (hs : ss.getD A.length 0 = n * ss.getD (A.length + 1) 0) :
    dot (ss.eraseIdx A.length) (A ++ (a * n + b) :: B) = dot ss (A ++ a :: b :: B) := by
  obtain ⟨S, T, e, hS⟩ := split_pair ss _ h
  rw [e, ← hS, erase_split, hS, dot_append _ _ _ _ hS, dot_append _ _ _ _ hS, hs]
  simp only [dot_cons]
  ring

/-- `fuse01()`, `fuse12()`, …: the entry at `a*n+b` is the entry at `a,b`, where `n` is the size of the second axis.
Missing: views in which a step along the first axis is not as long as the second axis. -/
theorem C342_fuse_partial (v : HV) (hl : v.ns.length = v.ss.length) (A B : List Nat) (h : A.length + 1 < v.ns.length) (hv : v.Linked A.length) (a b : Nat) :
    (∃ N M, v.ns = N ++ v.ns.getD A.length 0 :: v.ns.getD (A.length + 1) 0 :: M ∧ N.length = A.length ∧
      (v.fuse A.length).ns = N ++ v.ns.getD A.length 0 * v.ns.getD (A.length + 1) 0 :: M) ∧
    (v.fuse A.length).at' (A ++ (a * v.ns.getD (A.length + 1) 0 + b) :: B) = v.at' (A ++ a :: b :: B) := by
  obtain ⟨N, M, e, hN⟩ := split_pair v.ns _ h
  refine ⟨⟨N, M, e, hN, ?_⟩, ?_⟩
  · show hmerge v.ns A.length = _
    conv_lhs => rw [e, ← hN]
    rw [hmerge_split, hN]
  · rw [at', at', ← fuse_dot v.ss A B _ a b (by omega) hv]
    rfl

theorem C342_cfuse_partial (v : CHV) (hl : v.ns.length = v.ss.length) (A B : List Nat) (h : A.length + 1 < v.ns.length) (hv : v.Linked A.length) (a b : Nat) :
    (v.fuse A.length).arr = v.arr ∧ (v.fuse A.length).arrc = v.arrc ∧ (v.fuse A.length).ns = (HV.fuse ⟨v.arr, v.ns, v.ss⟩ A.length).ns ∧
    dot (v.fuse A.length).ss (A ++ (a * v.ns.getD (A.length + 1) 0 + b) :: B) = dot v.ss (A ++ a :: b :: B) :=
  ⟨rfl, rfl, rfl, fuse_dot v.ss A B _ a b (by omega) hv⟩

theorem zeros_range : ∀ (l : List Nat), (∀ n ∈ l, 0 < n) → InRange (List.replicate l.length 0) l
  | [], _ => inRange_nil
  | n :: l, h => by
    rw [List.length_cons, List.replicate_succ, inRange_cons]
    exact ⟨h n (by simp), zeros_range l fun n' hn => h n' (by simp [hn])⟩

/-- In any view whose axes do not lie so, the entry at 1, 0 is misplaced. -/
theorem C342_unlinked_fails (v : HV) (hl : v.ns.length = v.ss.length) (k : Nat) (h : k + 1 < v.ns.length) (hp : ∀ n ∈ v.ns, 0 < n) (h2 : 2 ≤ v.ns.getD k 0)
    (hv : ¬ v.Linked k) : ∃ A B : List Nat, A.length = k ∧ InRange (A ++ 1 :: 0 :: B) v.ns ∧
      (v.fuse k).at' (A ++ (1 * v.ns.getD (k + 1) 0 + 0) :: B) ≠ v.at' (A ++ 1 :: 0 :: B) := by
  obtain ⟨S, T, e, hS⟩ := split_pair v.ss k (by omega)
  obtain ⟨N, M, e', hN⟩ := split_pair v.ns k (by omega)
  have hd : ∀ (L : List Nat) k, dot L (List.replicate k 0) = 0 := by
    intro L
    induction L with
    | nil => simp
    | cons a L ih => intro k; cases k <;> simp [List.replicate_succ, ih]
  refine ⟨List.replicate N.length 0, List.replicate M.length 0, by simp [hN], ?_, ?_⟩
  · rw [e'] at hp ⊢
    rw [inRange_append (by simp), inRange_cons, inRange_cons]
    exact ⟨zeros_range N fun n hn => hp n (by simp [hn]), by omega, hp _ (by simp), zeros_range M fun n hn => hp n (by simp [hn])⟩
  · show v.arr + dot (v.ss.eraseIdx k) _ ≠ v.arr + dot v.ss _
    intro he
    have he := Nat.add_left_cancel he
    rw [e] at he
    conv_lhs at he => rw [← hS, erase_split]
    rw [dot_append _ _ _ _ (by simp; omega), dot_append _ _ _ _ (by simp; omega)] at he
    simp only [dot_cons, hd, Nat.one_mul, Nat.add_zero, Nat.mul_one, Nat.mul_zero, Nat.zero_add, hS] at he
    apply hv
    rw [Linked, Nat.mul_comm]
    omega

example : ((HV.mk 0 [2, 2, 2, 3] [12, 6, 3, 1]).fuse 1) = ⟨0, [2, 4, 3], [12, 3, 1]⟩ ∧ (HV.mk 0 [2, 2, 2, 3] [12, 6, 3, 1]).Linked 1 := ⟨rfl, rfl⟩

/-! ### C343 split axes -/

theorem split_dot (ss A B : List Nat) (j a b : Nat) (h : A.length < ss.length) :
    dot (ss.take A.length ++ ss.getD A.length 0 * j :: ss.getD A.length 0 :: ss.drop (A.length + 1)) (A ++ a :: b :: B) =
      dot ss (A ++ (a * j + b) :: B) := by
  have e : ss = ss.take A.length ++ ss.getD A.length 0 :: ss.drop (A.length + 1) := by
    rw [List.getD_eq_getElem _ _ h, List.getElem_cons_drop, List.take_append_drop]
  have hS : (ss.take A.length).length = A.length := by simp; omega
  conv_rhs => rw [e]
  rw [dot_append _ _ _ _ hS, dot_append _ _ _ _ hS]
  simp only [dot_cons]
  ring

/-- `split0(x,i,j)`, `split1(x,i,j)`, …: the entry at `a,b` is the entry of `x` at `a*j+b`. -/
theorem C343_split (v : HV) (hl : v.ns.length = v.ss.length) (i j : Nat) (A B : List Nat) (hk : A.length < v.ns.length) (h : i * j = v.ns.getD A.length 0) :
    ∃ w, v.split A.length i j = .ok w ∧ w.ns = v.ns.take A.length ++ i :: j :: v.ns.drop (A.length + 1) ∧
      ∀ a b, w.at' (A ++ a :: b :: B) = v.at' (A ++ (a * j + b) :: B) := by
  refine ⟨_, by rw [HV.split, decide_eq_true h, Res.assrt_true, Res.ok_bind], rfl, fun a b => ?_⟩
  rw [at', at', split_dot v.ss A B j a b (by omega)]

/-- Fusing the two parts gives the view back. -/
theorem C343_inverse (v w : HV) (hl : v.ns.length = v.ss.length) (k i j : Nat) (hk : k < v.ns.length) (h : v.split k i j = .ok w) : w.fuse k = v ∧ w.Linked k := by
  unfold HV.split at h
  by_cases hij : i * j = v.ns.getD k 0
  · simp only [hij, decide_true, Res.assrt_true, Res.ok_bind, Res.ok.injEq] at h
    subst h
    have hN : (v.ns.take k).length = k := by simp; omega
    have hS : (v.ss.take k).length = k := by simp; omega
    constructor
    · simp only [HV.fuse]
      have e1 := hmerge_split i j (v.ns.take k) (v.ns.drop (k + 1))
      rw [hN] at e1
      rw [e1, hij]
      have e2 := erase_split (v.ss.getD k 0 * j) (v.ss.take k) (v.ss.getD k 0 :: v.ss.drop (k + 1))
      rw [hS] at e2
      rw [e2]
      congr 1
      · rw [List.getD_eq_getElem _ _ hk, List.getElem_cons_drop, List.take_append_drop]
      · rw [List.getD_eq_getElem _ _ (by omega), List.getElem_cons_drop, List.take_append_drop]
    · simp only [Linked, List.getD_eq_getElem?_getD]
      rw [List.getElem?_append_right (by omega), List.getElem?_append_right (by omega), List.getElem?_append_right (by omega), hN, hS]
      simp [Nat.mul_comm]
  · rw [decide_eq_false hij] at h
    cases h

theorem C343_refused (v : HV) (k i j : Nat) (h : i * j ≠ v.ns.getD k 0) : v.split k i j = .throw := by
  rw [HV.split, decide_eq_false h]
  rfl

example : (HV.mk 0 [2, 6, 3] [18, 3, 1]).split 1 2 3 = .ok ⟨0, [2, 2, 3, 3], [18, 9, 3, 1]⟩ := rfl

/-! ### C344 sums of views -/

/-- `add(y)`: entry by entry, if common cells hold the same entry. -/
theorem C344_add [Add α] (r y : HV) (hn : y.ns = r.ns) (hi : r.Inj)
    (ha : ∀ ix, InRange ix r.ns → ∀ jx, InRange jx y.ns → r.at' ix = y.at' jx → ix = jx) (m : Buf α) (R Y : List Nat → α) (hR : r.Has m R) (hY : y.Has m Y) :
    ∃ m', r.add y m = .ok m' ∧ r.Has m' (fun ix => R ix + Y ix) ∧ ∀ c, ¬ r.Cov c → m' c = m c := add_ok hn hi ha hR hY

theorem C344_refused [Add α] (r y : HV) (hn : y.ns ≠ r.ns) (m : Buf α) : r.add y m = .throw := by simp [HV.add, hn]

example : ∃ m', (HV.mk 0 [1, 1, 2, 2] [4, 4, 2, 1]).add ⟨4, [1, 1, 2, 2], [4, 4, 1, 2]⟩ (Buf.ofList [1, 2, 3, 4, 10, 20, 30, 40]) = .ok m' ∧
    (List.range 4).map m' = [some (11 : Int), some 32, some 23, some 44] := ⟨_, rfl, rfl⟩

/-! ### C345 conversions to tensors -/

theorem gtensor_core (junk : Nat → α) (D : List Nat) (hD : D ≠ []) (X : List Nat → α) (body : List Nat → GT α → Res (GT α))
    (hb : ∀ ix, InRange ix D → ∀ R : GT α, body ix R = R.setInts ix (X ix)) :
    ∃ R, (GT.new junk D >>= fun R => nestLoop D R body) = .ok R ∧ R.Is D X := by
  rw [GT.new_ok junk hD, Res.ok_bind, nestLoop_eq]
  obtain ⟨b, e, h1, h2, _⟩ := GT.sets_run (fun a : List α => (⟨D.length, 0, D, rmStrides D, D.prod, D.prod, false, a⟩ : GT α)) (position D)
    (fun ix _ => X ix) (fun s ix => body ix s) (allIndices D) (GT.alloc junk D.prod)
    (by rw [map_position_allIndices]; exact List.nodup_range)
    (fun ix hi => by rw [GT.alloc_length]; exact position_lt (mem_allIndices.1 hi))
    (fun ix hi b _ v hv => by
      have hi := mem_allIndices.1 hi
      rw [hb ix hi]
      exact GT.setInts_ok (dims := D) rfl rfl hi.length hv)
  rw [GT.alloc_length] at h1
  refine ⟨_, e, ?_⟩
  have : b = (allIndices D).map X := GT.cell_ext h1 fun ix hi => h2 ix (mem_allIndices.2 hi) _
    (List.getElem?_eq_getElem (by rw [GT.alloc_length]; exact position_lt hi))
  rw [this]
  exact GT.new_is hD X false

/-- `gtensor()` of views with four to six axes: the entries in row-major order, whatever the strides. -/
theorem C345_gtensor (v : HV) (hn : v.ns ≠ []) (junk : Nat → α) (m : Buf α) (X : List Nat → α) (hX : v.Has m X) :
    ∃ R, v.gtensor junk m = .ok R ∧ R.Is v.ns X := by
  refine gtensor_core junk v.ns hn X _ fun ix hi R => ?_
  rw [C337_get v m X hX ix hi, Res.ok_bind]

/-- `gtensor()` of `Ctensor6_view`. -/
theorem C345_cgtensor (v : CHV) (hn : v.ns ≠ []) (junk : Nat → Cx α) (m : Buf α) (X : List Nat → Cx α) (hX : v.Has m X) :
    ∃ R, v.gtensor junk m = .ok R ∧ R.Is v.ns X := by
  refine gtensor_core junk v.ns hn X _ fun ix hi R => ?_
  rw [C338_get v m X hX ix hi, Res.ok_bind]

example : ∃ R, (HV.mk 0 [1, 2, 1, 2] [4, 1, 4, 2]).gtensor (fun _ => 0) (Buf.ofList [10, 20, 30, 40]) = .ok R ∧ R.arr = [10, 30, 20, 40] := ⟨_, rfl, rfl⟩

/-! ### C346 `Rtensor7_view::gtensor` -/

/-- The new tensor has six axes, so the first entry is refused: every view with an entry. -/
theorem C346_refused_fails (v : HV) (hn : v.ns.length = 7) (junk : Nat → α) (m : Buf α) (X : List Nat → α) (hX : v.Has m X) (hp : ∀ n ∈ v.ns, 0 < n) :
    v.gtensor7 junk m = .throw := by
  have h6 : (v.ns.take 6).length = 6 := by simp; omega
  rw [HV.gtensor7, HV.gtensorOf, GT.new_ok junk (by intro h; rw [h] at h6; simp at h6), Res.ok_bind, nestLoop_eq]
  have hmem : List.replicate v.ns.length 0 ∈ allIndices v.ns := mem_allIndices.2 (zeros_range _ hp)
  cases hL : allIndices v.ns with
  | nil => rw [hL] at hmem; simp at hmem
  | cons ix L =>
    have hi : InRange ix v.ns := mem_allIndices.1 (by rw [hL]; simp)
    rw [Res.forM_cons, C337_get v m X hX ix hi, Res.ok_bind, GT.setInts, h6, hi.length, hn]
    rfl

/-- Missing: everything but views without entries; and the tensor made from those has six axes, not seven. -/
theorem C346_empty_partial (v : HV) (hn : v.ns.length = 7) (junk : Nat → α) (m : Buf α) (hp : 0 ∈ v.ns) :
    ∃ R, v.gtensor7 junk m = .ok R ∧ R.k = 6 := by
  have h6 : (v.ns.take 6).length = 6 := by simp; omega
  rw [HV.gtensor7, HV.gtensorOf, GT.new_ok junk (by intro h; rw [h] at h6; simp at h6), Res.ok_bind, nestLoop_eq]
  have : allIndices v.ns = [] := by
    rw [← List.length_eq_zero_iff, allIndices_length]
    exact List.prod_eq_zero_iff.2 hp
  rw [this]
  exact ⟨_, rfl, h6⟩

example : (HV.mk 0 [1, 1, 1, 1, 1, 1, 2] [2, 2, 2, 2, 2, 2, 1]).gtensor7 (fun _ => 0) (Buf.ofList [5, 6]) = .throw := rfl

/-! ### C347 reductions -/

/-- `reduce0_destructively()` to `reduce3_destructively()` of a view with `4+e` axes (`e ≤ 3` in the code): the entries with index 0 along axis `k` become the sums along
that axis.  Missing: views whose strides leave gaps, and a single slice. -/
theorem C347_reduce_partial [AddCommMonoid α] (e k : Nat) (v : HV) (hv : v.Compact) (hl : v.ns.length = 4 + e) (hk : k ≤ 3) (hn : 2 ≤ v.ns.getD k 0)
    (m : Buf α) (X : List Nat → α) (hX : v.Has m X) : ∃ m', reduce (e + 1) k v m = .ok m' ∧
      (∀ ix, InRange ix v.ns → m' (v.at' (ix.set k 0)) = some ((List.range (v.ns.getD k 0)).map fun i => X (ix.set k i)).sum) ∧
      ∀ c, ¬ v.Cov c → m' c = m c :=
  reduce_compact (e + 1) k v hv (by omega) (by omega) hk hn m X hX

/-- Along an axis that is neither the first nor the last it is enough that the axes before it lie close, and those after it.
Missing: the other axes, other views, and a single slice. -/
theorem C347_loose_partial [AddCommMonoid α] (e k : Nat) (v : HV) (hls : v.ns.length = v.ss.length) (hi : v.Inj) (hl : v.ns.length = 4 + e) (hk1 : 1 ≤ k)
    (hk2 : k < 3 + e) (hk3 : k ≤ 3) (hn : 2 ≤ v.ns.getD k 0) (hL : ∀ j, j + 1 < v.ns.length → j + 1 ≠ k → j ≠ k → v.Linked j)
    (m : Buf α) (X : List Nat → α) (hX : v.Has m X) : ∃ m', reduce (e + 1) k v m = .ok m' ∧
      (∀ ix, InRange ix v.ns → m' (v.at' (ix.set k 0)) = some ((List.range (v.ns.getD k 0)).map fun i => X (ix.set k i)).sum) ∧
      ∀ c, ¬ v.Cov c → m' c = m c :=
  reduce_loose (e + 1) k v hls hi (by omega) hk1 (by omega) hk3 hn hL m X hX

/-- A single slice is doubled. -/
theorem C347_single_fails : ∃ (v : HV) (m m' : Buf Int), v.Compact ∧ v.ns = [1, 1, 1, 2] ∧ reduce 1 0 v m = .ok m' ∧ m 0 = some 5 ∧ m' 0 = some 10 :=
  ⟨⟨0, [1, 1, 1, 2], [2, 2, 2, 1]⟩, Buf.ofList [5, 6], _, rfl, rfl, rfl, rfl, rfl⟩

/-- The strides of the axes that are fused are not looked at: here the entries 0,1 and 1,1 of the two middle axes are not those summed. -/
theorem C347_strides_fails : ∃ (v : HV) (m m' : Buf Int), v.ns = [2, 2, 2, 1] ∧ v.Inj ∧ (∀ c, v.Cov c → (m c).isSome) ∧
    reduce 1 0 v m = .ok m' ∧ m (v.at' [0, 1, 0, 0]) = some 8 ∧ m (v.at' [1, 1, 0, 0]) = some 12 ∧ m' (v.at' [0, 1, 0, 0]) = some 8 := by
  have hr : ∀ ix, InRange ix [2, 2, 2, 1] → ∃ a b c, a < 2 ∧ b < 2 ∧ c < 2 ∧ ix = [a, b, c, 0] := by
    intro ix h
    match ix, h.length with
    | [a, b, c, d], _ =>
      simp only [inRange_cons] at h
      obtain ⟨h1, h2, h3, h4, -⟩ := h
      exact ⟨a, b, c, h1, h2, h3, by simp; omega⟩
  refine ⟨⟨0, [2, 2, 2, 1], [4, 8, 1, 1]⟩, Buf.ofList [0, 1, 2, 3, 4, 5, 6, 7, 8, 9, 10, 11, 12, 13], _, rfl, ?_, ?_, rfl, rfl, rfl, rfl⟩
  · intro ix hi jx hj e
    obtain ⟨a, b, c, ha, hb, hc, rfl⟩ := hr ix hi
    obtain ⟨a', b', c', ha', hb', hc', rfl⟩ := hr jx hj
    simp [at', dot] at e
    simp
    omega
  · rintro c ⟨ix, hi, rfl⟩
    obtain ⟨a, b, c, ha, hb, hc, rfl⟩ := hr ix hi
    interval_cases a <;> interval_cases b <;> interval_cases c <;> rfl

example : ∃ m', reduce 1 2 (HV.mk 0 [1, 1, 3, 2] [6, 6, 2, 1]) (Buf.ofList [1, 2, 3, 4, 5, 6]) = .ok m' ∧ m' 0 = some (9 : Int) ∧ m' 1 = some 12 := ⟨_, rfl, rfl, rfl⟩

example : ∃ m', reduce 4 3 (HV.mk 0 [1, 1, 1, 2, 1, 1, 2] [4, 4, 4, 2, 2, 2, 1]) (Buf.ofList [1, 2, 3, 4]) = .ok m' ∧ m' 0 = some (4 : Int) ∧ m' 1 = some 6 :=
  ⟨_, rfl, rfl, rfl⟩

/-! ### C348 reductions into a view -/

/-- `reduce0_destructively_into(r)` to `reduce3_destructively_into(r)`: the sums are added to `r`.  Missing: as for the reductions, and results that share cells with the view. -/
theorem C348_into_partial [AddCommMonoid α] (e k : Nat) (v r : HV) (hv : v.Compact) (hl : v.ns.length = 4 + e) (hk : k ≤ 3) (hn : 2 ≤ v.ns.getD k 0)
    (hr : r.ns = v.ns.eraseIdx k) (hrl : r.ns.length = r.ss.length) (hri : r.Inj) (ha : v.Apart r) (m : Buf α) (X R : List Nat → α)
    (hX : v.Has m X) (hR : r.Has m R) : ∃ m', reduceInto e k v r m = .ok m' ∧
      r.Has m' (fun ix => R ix + ((List.range (v.ns.getD k 0)).map fun i => X (ix.insertIdx k i)).sum) ∧
      ∀ c, ¬ v.Cov c → ¬ r.Cov c → m' c = m c := by
  obtain ⟨m1, g1, g2⟩ := reduce_compact (e + 1) k v hv (by omega) (by omega) hk hn m X hX
  exact into_ok hv.len hl (by omega) (by omega) hr hrl hri ha hR g1 g2

/-- Along an axis that is neither the first nor the last.  Missing: as for the reductions. -/
theorem C348_loose_partial [AddCommMonoid α] (e k : Nat) (v r : HV) (hls : v.ns.length = v.ss.length) (hi : v.Inj) (hl : v.ns.length = 4 + e) (hk1 : 1 ≤ k)
    (hk2 : k < 3 + e) (hk3 : k ≤ 3) (hn : 2 ≤ v.ns.getD k 0) (hL : ∀ j, j + 1 < v.ns.length → j + 1 ≠ k → j ≠ k → v.Linked j)
    (hr : r.ns = v.ns.eraseIdx k) (hrl : r.ns.length = r.ss.length) (hri : r.Inj) (ha : v.Apart r) (m : Buf α) (X R : List Nat → α)
    (hX : v.Has m X) (hR : r.Has m R) : ∃ m', reduceInto e k v r m = .ok m' ∧
      r.Has m' (fun ix => R ix + ((List.range (v.ns.getD k 0)).map fun i => X (ix.insertIdx k i)).sum) ∧
      ∀ c, ¬ v.Cov c → ¬ r.Cov c → m' c = m c := by
  obtain ⟨m1, g1, g2⟩ := reduce_loose (e + 1) k v hls hi (by omega) hk1 (by omega) hk3 hn hL m X hX
  exact into_ok hls hl (by omega) (by omega) hr hrl hri ha hR g1 g2

/-- A single slice is added twice. -/
theorem C348_single_fails : ∃ (v r : HV) (m m' : Buf Int), v.Compact ∧ v.ns = [1, 1, 1, 2] ∧ r.ns = [1, 1, 2] ∧ reduceInto 0 0 v r m = .ok m' ∧
    m (v.at' [0, 0, 0, 0]) = some 5 ∧ m (r.at' [0, 0, 0]) = some 100 ∧ m' (r.at' [0, 0, 0]) = some 110 :=
  ⟨⟨0, [1, 1, 1, 2], [2, 2, 2, 1]⟩, ⟨2, [1, 1, 2], [2, 2, 1]⟩, Buf.ofList [5, 6, 100, 200], _, rfl, rfl, rfl, rfl, rfl, rfl, rfl⟩

example : ∃ m', reduceInto 1 3 (HV.mk 0 [1, 1, 1, 2, 2] [4, 4, 4, 2, 1]) ⟨4, [1, 1, 1, 2], [2, 2, 2, 1]⟩ (Buf.ofList [1, 2, 3, 4, 10, 20]) = .ok m' ∧
    m' 4 = some (14 : Int) ∧ m' 5 = some 26 := ⟨_, rfl, rfl, rfl⟩

/-! ### C349 broadcasts -/

/-- `broadcast0(x)`, `broadcast1(x)`, … of a view with `4+e` axes (`e ≤ 2` in the code): every slice along axis `k` becomes `x`.
Missing: views or sources whose strides leave gaps, sources that share cells with the view, and no slices. -/
theorem C349_broadcast_partial (e k : Nat) (v x : HV) (hv : v.Compact) (hx : x.Compact) (hl : v.ns.length = 4 + e) (hk : k < 4 + e)
    (hxn : x.ns = v.ns.eraseIdx k) (hn : 1 ≤ v.ns.getD k 0 ∨ k = 3 + e) (ha : v.Apart x) (m : Buf α) (R X : List Nat → α) (hR : v.Has m R) (hX : x.Has m X) :
    ∃ m', broadcast (e + 1) k v x m = .ok m' ∧ v.Has m' (fun ix => X (ix.eraseIdx k)) ∧ ∀ c, ¬ v.Cov c → m' c = m c :=
  broadcast_compact (e + 1) k v x hv hx (by omega) (by omega) hxn (by omega) ha m R X hR hX

/-- Sources of other sizes are refused. -/
theorem C349_refused_partial (e k : Nat) (v x : HV) (hxn : x.ns ≠ v.ns.eraseIdx k) (m : Buf α) : broadcast (e + 1) k v x m = .throw := by
  match k with
  | 0 => simp only [broadcast, decide_eq_false hxn]; rfl
  | 1 => simp only [broadcast, decide_eq_false hxn]; rfl
  | k + 2 => simp only [broadcast, decide_eq_false hxn]; rfl

/-- No slices: cells that are not in the view are overwritten. -/
theorem C349_no_slices_fails : ∃ (v x : HV) (m m' : Buf Int), v.Compact ∧ x.Compact ∧ v.ns = [0, 1, 1, 2] ∧ x.ns = [1, 1, 2] ∧
    broadcast 1 0 v x m = .ok m' ∧ m 0 = some 1 ∧ m' 0 = some 5 :=
  ⟨⟨0, [0, 1, 1, 2], [2, 2, 2, 1]⟩, ⟨2, [1, 1, 2], [2, 2, 1]⟩, Buf.ofList [1, 2, 5, 6], _, rfl, rfl, rfl, rfl, rfl, rfl, rfl⟩

/-- The strides of the fused axes are not looked at: the entry 1,0 of the first two axes keeps its value. -/
theorem C349_strides_fails : ∃ (v x : HV) (m m' : Buf Int), v.ns = [2, 2, 1, 1] ∧ x.Compact ∧ x.ns = [2, 2, 1] ∧ v.Apart x ∧ v.Inj ∧
    broadcast 1 2 v x m = .ok m' ∧ m (x.at' [1, 0, 0]) = some 7 ∧ m' (v.at' [1, 0, 0, 0]) = some 0 := by
  have hr : ∀ ix, InRange ix [2, 2, 1, 1] → ∃ a b, a < 2 ∧ b < 2 ∧ ix = [a, b, 0, 0] := by
    intro ix h
    match ix, h.length with
    | [a, b, c, d], _ =>
      simp only [inRange_cons] at h
      obtain ⟨h1, h2, h3, h4, -⟩ := h
      exact ⟨a, b, h1, h2, by simp; omega⟩
  have hr3 : ∀ ix, InRange ix [2, 2, 1] → ∃ a b, a < 2 ∧ b < 2 ∧ ix = [a, b, 0] := by
    intro ix h
    match ix, h.length with
    | [a, b, c], _ =>
      simp only [inRange_cons] at h
      obtain ⟨h1, h2, h3, -⟩ := h
      exact ⟨a, b, h1, h2, by simp; omega⟩
  refine ⟨⟨0, [2, 2, 1, 1], [4, 1, 1, 1]⟩, ⟨6, [2, 2, 1], [2, 1, 1]⟩, Buf.ofList [0, 0, 0, 0, 0, 0, 5, 6, 7, 8], _, rfl, rfl, rfl, ?_, ?_, rfl, rfl, rfl⟩
  · rintro c ⟨ix, hi, rfl⟩ ⟨jx, hj, e⟩
    obtain ⟨a, b, ha, hb, rfl⟩ := hr ix hi
    obtain ⟨a', b', ha', hb', rfl⟩ := hr3 jx hj
    simp [at', dot] at e
    omega
  · intro ix hi jx hj e
    obtain ⟨a, b, ha, hb, rfl⟩ := hr ix hi
    obtain ⟨a', b', ha', hb', rfl⟩ := hr jx hj
    simp [at', dot] at e
    simp
    omega

example : ∃ m', broadcast 1 0 (HV.mk 0 [2, 1, 1, 2] [2, 2, 2, 1]) ⟨4, [1, 1, 2], [2, 2, 1]⟩ (Buf.ofList [0, 0, 0, 0, 7, 8]) = .ok m' ∧
    (List.range 4).map m' = [some (7 : Int), some 8, some 7, some 8] := ⟨_, rfl, rfl⟩

example : ∃ m', broadcast 3 5 (HV.mk 0 [2, 1, 1, 1, 1, 2] [2, 2, 2, 2, 2, 1]) ⟨4, [2, 1, 1, 1, 1], [1, 1, 1, 1, 1]⟩ (Buf.ofList [0, 0, 0, 0, 7, 8]) = .ok m' ∧
    (List.range 4).map m' = [some (7 : Int), some 7, some 8, some 8] := ⟨_, rfl, rfl⟩

end Cnine
