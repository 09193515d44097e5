import Verif.Props.View
import Verif.Props.Index

/-! # Splitting, fusing and scrunching axes (C14, C15) -/

namespace Cnine

open View

/-! ## C14 -/

/-- Replace entries `d`, `d+1` by the single entry `ix[d]*a + ix[d+1]`. -/
def joinAt (d a : Nat) (ix : List Nat) : List Nat :=
  ix.take d ++ (ix[d]?.getD 0 * a + ix[d + 1]?.getD 0) :: ix.drop (d + 2)

theorem joinAt_split (d a : Nat) (A B : List Nat) (i j : Nat) (h : A.length = d) :
    joinAt d a (A ++ i :: j :: B) = A ++ (i * a + j) :: B := by
  subst h
  have h2 : (A ++ i :: j :: B).drop (A.length + 2) = B := by
    rw [List.drop_append]; simp
  simp [joinAt, h2]

theorem divmod_lt {i j e a : Nat} (hi : i < e) (hj : j < a) : i * a + j < e * a := by
  have : (i + 1) * a ≤ e * a := Nat.mul_le_mul_right _ hi
  rw [Nat.succ_mul] at this; omega

theorem divmod_inj {i j k l a : Nat} (hj : j < a) (hl : l < a) (h : i * a + j = k * a + l) : i = k ∧ j = l := by
  have h1 : (i * a + j) / a = i := by
    rw [Nat.mul_comm, Nat.mul_add_div (by omega), Nat.div_eq_of_lt hj, Nat.add_zero]
  have h2 : (k * a + l) / a = k := by
    rw [Nat.mul_comm, Nat.mul_add_div (by omega), Nat.div_eq_of_lt hl, Nat.add_zero]
  have : i = k := by rw [← h1, ← h2, h]
  subst this
  exact ⟨rfl, by omega⟩

theorem split_axis (off e a s : Nat) (A B S T : List Nat) (hS : S.length = A.length) (hT : T.length = B.length)
    (ha0 : 0 < a) :
    RelabelsBij ⟨off, A ++ e :: a :: B, S ++ (s * a) :: s :: T⟩ ⟨off, A ++ (e * a) :: B, S ++ s :: T⟩
      (joinAt A.length a) := by
  have hsp : ∀ ix, InRange ix (A ++ e :: a :: B) → ∃ x i j b, ix = x ++ i :: j :: b ∧ x.length = A.length ∧
      InRange x A ∧ i < e ∧ j < a ∧ InRange b B := by
    intro ix h
    obtain ⟨x, i, t, rfl, hx, hA, hi, ht⟩ := inRange_split h
    obtain ⟨j, b, hj, hb, rfl⟩ := List.forall₂_cons_right_iff.1 ht
    exact ⟨x, i, j, b, rfl, hx, hA, hi, hj, hb⟩
  refine ⟨⟨by simp [WF, hS, hT], ?_⟩, ?_, ?_⟩
  · intro ix hix
    obtain ⟨x, i, j, b, rfl, hx, hA, hi, hj, hb⟩ := hsp ix hix
    rw [joinAt_split _ _ _ _ _ _ hx]
    refine ⟨(inRange_append hx).2 ⟨hA, inRange_cons.2 ⟨divmod_lt hi hj, hb⟩⟩, ?_⟩
    simp only [cell, dot_append S _ x _ (show S.length = x.length by omega), dot_cons]
    ring
  · intro ix jx hix hjx
    obtain ⟨x, i, j, b, rfl, hx, hA, hi, hj, hb⟩ := hsp ix hix
    obtain ⟨x', i', j', b', rfl, hx', hA', hi', hj', hb'⟩ := hsp jx hjx
    rw [joinAt_split _ _ _ _ _ _ hx, joinAt_split _ _ _ _ _ _ hx']
    intro he
    obtain ⟨e1, e2⟩ := List.append_inj he (by omega)
    simp only [List.cons.injEq] at e2
    obtain ⟨rfl, rfl⟩ := divmod_inj hj hj' e2.1
    rw [e1, e2.2]
  · intro jx hjx
    obtain ⟨x, k, b, rfl, hx, hA, hk, hb⟩ := inRange_split hjx
    refine ⟨x ++ (k / a) :: (k % a) :: b, ?_, ?_⟩
    · refine (inRange_append hx).2 ⟨hA, inRange_cons.2 ⟨?_, inRange_cons.2 ⟨Nat.mod_lt _ ha0, hb⟩⟩⟩
      exact Nat.div_lt_of_lt_mul (by rwa [Nat.mul_comm] at hk)
    · rw [joinAt_split _ _ _ _ _ _ hx, Nat.div_add_mod']

/-- `split(d,a)` for a divisor `a` of the extent: index `(..,i,j,..)` of the result is `(..,i*a+j,..)`
of the original, bijectively. -/
theorem C14_split (v : View) (d a : Nat) (hwf : v.WF) (hd : d < v.dims.length) (ha : 0 < a)
    (hdiv : v.dims[d] % a = 0) :
    ∃ w, v.split d a = .ok w ∧
      w.dims = v.dims.take d ++ (v.dims[d] / a) :: a :: v.dims.drop (d + 1) ∧
      RelabelsBij w v (joinAt d a) := by
  obtain ⟨off, dims, strides⟩ := v
  simp only [WF] at hwf hd hdiv ⊢
  obtain ⟨A, n, B, rfl, rfl, hn⟩ := split_at dims d hd
  obtain ⟨S, s, T, rfl, hS, -⟩ := split_at strides A.length (by omega)
  have hT : T.length = B.length := by simp at hwf; omega
  rw [hn] at hdiv ⊢
  have hna : n / a * a = n := Nat.div_mul_cancel (Nat.dvd_of_mod_eq_zero hdiv)
  have hdrop : (A ++ n :: B).drop (A.length + 1) = B := by
    rw [List.drop_append]; simp
  refine ⟨⟨off, A ++ (n / a) :: a :: B, S ++ (s * a) :: s :: T⟩, ?_, by simp [hdrop], ?_⟩
  · have h1 : gvInsert (A ++ n :: B) (A.length + 1) a = .ok (A ++ n :: a :: B) := by
      have := gvInsert_split (A ++ [n]) B a
      simpa using this
    have h2 : Res.get (S ++ s :: T) A.length = .ok s := by rw [← hS, get_split]
    have h3 : gvInsert (S ++ s :: T) A.length (s * a) = .ok (S ++ (s * a) :: s :: T) := by
      rw [← hS, gvInsert_split]
    have hlt : A.length < (A ++ n :: B).length := by simp
    simp only [View.split, hlt, decide_true, Res.assrt_true, Res.ok_bind, get_split, Nat.pos_iff_ne_zero.1 ha,
      ne_eq, not_false_eq_true, Res.need_true, hdiv, h1, gvSet_split, h2, h3]
  · have := split_axis off (n / a) a s A B S T hS hT ha
    rwa [hna] at this

/-- `split` refuses an axis number that is too large and a factor that does not divide; factor 0
divides by zero. -/
theorem C14_split_refuses (v : View) (d a : Nat) :
    (v.dims.length ≤ d → v.split d a = .throw) ∧
    (∀ hd : d < v.dims.length, 0 < a → v.dims[d] % a ≠ 0 → v.split d a = .throw) ∧
    (d < v.dims.length → v.split d 0 = .ub) := by
  refine ⟨?_, ?_, ?_⟩
  · intro h; simp [View.split, Nat.not_lt.2 h]
  · intro hd ha h
    simp [View.split, hd, Res.get, Nat.pos_iff_ne_zero.1 ha, h]
  · intro hd
    simp [View.split, hd, Res.get]

/-- `split0(a,b)` and `split1(a,b)`. -/
theorem C14_split01 (v : View) (a b : Nat) (hwf : v.WF) (hb : 0 < b) :
    (∀ r, v.dims = (a * b) :: r → ∃ w, v.split0 a b = .ok w ∧ w.dims = a :: b :: r ∧
      RelabelsBij w v (joinAt 0 b)) ∧
    (∀ x r, v.dims = x :: (a * b) :: r → ∃ w, v.split1 a b = .ok w ∧ w.dims = x :: a :: b :: r ∧
      RelabelsBij w v (joinAt 1 b)) := by
  obtain ⟨off, dims, strides⟩ := v
  simp only [WF] at hwf ⊢
  constructor
  · rintro r rfl
    match strides, hwf with
    | s :: T, hwf =>
      refine ⟨⟨off, a :: b :: r, (s * b) :: s :: T⟩, ?_, rfl, ?_⟩
      · simp [split0, Res.get, gvInsert, gvSet]
      · exact split_axis off a b s [] r [] T rfl (by simpa using hwf) hb
  · rintro x r rfl
    match strides, hwf with
    | t :: s :: T, hwf =>
      refine ⟨⟨off, x :: a :: b :: r, t :: (s * b) :: s :: T⟩, ?_, rfl, ?_⟩
      · simp [split1, Res.get, gvInsert, gvSet]
      · exact split_axis off a b s [x] r [t] T rfl (by simpa using hwf) hb

/-- Merge entry `s` into entry `f` (`ix[s]*D + ix[f]`) and drop position `s`. -/
def mergeAt (f s D : Nat) (ix : List Nat) : List Nat :=
  (ix.set f (ix[s]?.getD 0 * D + ix[f]?.getD 0)).eraseIdx s

theorem split_two {α} (l : List α) (i j : Nat) (hij : i < j) (hj : j < l.length) :
    ∃ A x B y C, l = A ++ x :: (B ++ y :: C) ∧ A.length = i ∧ A.length + 1 + B.length = j := by
  obtain ⟨A, x, R, rfl, rfl, -⟩ := split_at l i (by omega)
  obtain ⟨B, y, C, rfl, hB, -⟩ := split_at R (j - A.length - 1) (by simp at hj; omega)
  exact ⟨A, x, B, y, C, rfl, rfl, by omega⟩

theorem set_first (A B C : List Nat) (x y z : Nat) :
    (A ++ x :: (B ++ y :: C)).set A.length z = A ++ z :: (B ++ y :: C) := by simp

theorem set_second (A B C : List Nat) (x y z : Nat) :
    (A ++ x :: (B ++ y :: C)).set (A.length + 1 + B.length) z = A ++ x :: (B ++ z :: C) := by
  have := List.set_append_right (s := A ++ x :: B) (t := y :: C) (A.length + 1 + B.length) z (by simp; omega)
  simp only [List.append_assoc, List.cons_append] at this
  rw [this]
  have : A.length + 1 + B.length - (A ++ x :: B).length = 0 := by simp; omega
  rw [this]; simp

theorem erase_first (A B C : List Nat) (x y : Nat) :
    (A ++ x :: (B ++ y :: C)).eraseIdx A.length = A ++ (B ++ y :: C) := eraseIdx_split ..

theorem erase_second (A B C : List Nat) (x y : Nat) :
    (A ++ x :: (B ++ y :: C)).eraseIdx (A.length + 1 + B.length) = A ++ x :: (B ++ C) := by
  have := eraseIdx_split (A ++ x :: B) C y
  have hl : (A ++ x :: B).length = A.length + 1 + B.length := by simp; omega
  rw [hl] at this
  simpa using this

theorem get_first (A B C : List Nat) (x y : Nat) : (A ++ x :: (B ++ y :: C))[A.length]? = some x := by simp

theorem get_second (A B C : List Nat) (x y : Nat) :
    (A ++ x :: (B ++ y :: C))[A.length + 1 + B.length]? = some y := by
  rw [List.getElem?_append_right (by omega)]
  have : A.length + 1 + B.length - A.length = B.length + 1 := by omega
  rw [this]; simp

theorem inRange_two {ix A B C : List Nat} {x y : Nat} (h : InRange ix (A ++ x :: (B ++ y :: C))) :
    ∃ a i b j c, ix = a ++ i :: (b ++ j :: c) ∧ a.length = A.length ∧ b.length = B.length ∧
      InRange a A ∧ i < x ∧ InRange b B ∧ j < y ∧ InRange c C := by
  obtain ⟨a, i, t, rfl, ha, hA, hi, ht⟩ := inRange_split h
  obtain ⟨b, j, c, rfl, hb, hB, hj, hC⟩ := inRange_split ht
  exact ⟨a, i, b, j, c, rfl, ha, hb, hA, hi, hB, hj, hC⟩

theorem fuse_core (off : Nat) (dims strides : List Nat) (f s : Nat) (hl : strides.length = dims.length)
    (hf : f < dims.length) (hs : s < dims.length) (hne : f ≠ s)
    (hst : dims[f] * strides[f] = strides[s]) :
    RelabelsBij ⟨off, dims, strides⟩
      ⟨off, (dims.set f (dims[f] * dims[s])).eraseIdx s, strides.eraseIdx s⟩ (mergeAt f s dims[f]) := by
  rcases Nat.lt_or_gt_of_ne hne with h | h
  · obtain ⟨A, x, B, y, C, rfl, rfl, rfl⟩ := split_two dims f s h hs
    obtain ⟨S, p, T, q, U, rfl, hS, hT⟩ := split_two strides A.length _ h (by omega)
    have hT' : T.length = B.length := by omega
    have hU : U.length = C.length := by simp at hl; omega
    have e1 : (A ++ x :: (B ++ y :: C))[A.length] = x := by simp
    have e2 : (A ++ x :: (B ++ y :: C))[A.length + 1 + B.length] = y :=
      List.getElem_eq_iff _ |>.2 (get_second ..)
    have e3 : (S ++ p :: (T ++ q :: U))[A.length]'(by omega) = p :=
      List.getElem_eq_iff _ |>.2 (by rw [← hS]; exact get_first ..)
    have e4 : (S ++ p :: (T ++ q :: U))[A.length + 1 + B.length]'(by omega) = q :=
      List.getElem_eq_iff _ |>.2 (by rw [← hT]; exact get_second ..)
    rw [e1, e3, e4] at hst
    have e5 : (S ++ p :: (T ++ q :: U)).eraseIdx (A.length + 1 + B.length) = S ++ p :: (T ++ U) := by
      rw [← hT]; exact erase_second ..
    rw [e1, e2, set_first, erase_second, e5]
    have hm : ∀ a i b j c, a.length = A.length → b.length = B.length →
        mergeAt A.length (A.length + 1 + B.length) x (a ++ i :: (b ++ j :: c)) = a ++ (j * x + i) :: (b ++ c) := by
      intro a i b j c ha hb
      rw [← ha, ← hb, mergeAt, get_first, get_second, set_first, erase_second]
      rfl
    refine ⟨⟨by simp [WF]; omega, ?_⟩, ?_, ?_⟩
    · intro ix hix
      obtain ⟨a, i, b, j, c, rfl, ha, hb, hA, hi, hB, hj, hC⟩ := inRange_two hix
      rw [hm a i b j c ha hb]
      refine ⟨(inRange_append ha).2 ⟨hA, inRange_cons.2 ⟨?_, (inRange_append hb).2 ⟨hB, hC⟩⟩⟩, ?_⟩
      · rw [Nat.mul_comm x y]; exact divmod_lt hj hi
      · simp only [cell, dot_append S _ a _ (show S.length = a.length by omega), dot_cons,
          dot_append T _ b _ (show T.length = b.length by omega), ← hst]
        ring
    · intro ix jx hix hjx
      obtain ⟨a, i, b, j, c, rfl, ha, hb, hA, hi, hB, hj, hC⟩ := inRange_two hix
      obtain ⟨a', i', b', j', c', rfl, ha', hb', hA', hi', hB', hj', hC'⟩ := inRange_two hjx
      rw [hm a i b j c ha hb, hm a' i' b' j' c' ha' hb']
      intro he
      obtain ⟨e1, e2⟩ := List.append_inj he (by omega)
      simp only [List.cons.injEq] at e2
      obtain ⟨rfl, rfl⟩ := divmod_inj hi hi' e2.1
      obtain ⟨e3, e4⟩ := List.append_inj e2.2 (by omega)
      rw [e1, e3, e4]
    · intro jx hjx
      obtain ⟨a, k, t, rfl, ha, hA, hk, ht⟩ := inRange_split hjx
      obtain ⟨b, c, rfl, hb, hB, hC⟩ := inRange_split2 ht
      have hx0 : 0 < x := by
        rcases Nat.eq_zero_or_pos x with h0 | h0
        · simp [h0] at hk
        · exact h0
      refine ⟨a ++ (k % x) :: (b ++ (k / x) :: c), ?_, ?_⟩
      · exact (inRange_append ha).2 ⟨hA, inRange_cons.2 ⟨Nat.mod_lt _ hx0, (inRange_append hb).2
          ⟨hB, inRange_cons.2 ⟨Nat.div_lt_of_lt_mul hk, hC⟩⟩⟩⟩
      · rw [hm _ _ _ _ _ ha hb, Nat.div_add_mod']
  · obtain ⟨A, y, B, x, C, rfl, rfl, rfl⟩ := split_two dims s f h hf
    obtain ⟨S, q, T, p, U, rfl, hS, hT⟩ := split_two strides A.length _ h (by omega)
    have hT' : T.length = B.length := by omega
    have hU : U.length = C.length := by simp at hl; omega
    have e1 : (A ++ y :: (B ++ x :: C))[A.length] = y := by simp
    have e2 : (A ++ y :: (B ++ x :: C))[A.length + 1 + B.length] = x :=
      List.getElem_eq_iff _ |>.2 (get_second ..)
    have e3 : (S ++ q :: (T ++ p :: U))[A.length]'(by omega) = q :=
      List.getElem_eq_iff _ |>.2 (by rw [← hS]; exact get_first ..)
    have e4 : (S ++ q :: (T ++ p :: U))[A.length + 1 + B.length]'(by omega) = p :=
      List.getElem_eq_iff _ |>.2 (by rw [← hT]; exact get_second ..)
    rw [e2, e3, e4] at hst
    have e5 : (S ++ q :: (T ++ p :: U)).eraseIdx A.length = S ++ (T ++ p :: U) := by
      rw [← hS]; exact erase_first ..
    rw [e1, e2, set_second, erase_first, e5]
    have hm : ∀ a i b j c, a.length = A.length → b.length = B.length →
        mergeAt (A.length + 1 + B.length) A.length x (a ++ j :: (b ++ i :: c)) = a ++ (b ++ (j * x + i) :: c) := by
      intro a i b j c ha hb
      rw [← ha, ← hb, mergeAt, get_first, get_second, set_second, erase_first]
      rfl
    refine ⟨⟨by simp [WF]; omega, ?_⟩, ?_, ?_⟩
    · intro ix hix
      obtain ⟨a, j, b, i, c, rfl, ha, hb, hA, hj, hB, hi, hC⟩ := inRange_two hix
      rw [hm a i b j c ha hb]
      refine ⟨(inRange_append ha).2 ⟨hA, (inRange_append hb).2 ⟨hB, inRange_cons.2 ⟨?_, hC⟩⟩⟩, ?_⟩
      · rw [Nat.mul_comm x y]; exact divmod_lt hj hi
      · simp only [cell, dot_append S _ a _ (show S.length = a.length by omega), dot_cons,
          dot_append T _ b _ (show T.length = b.length by omega), ← hst]
        ring
    · intro ix jx hix hjx
      obtain ⟨a, j, b, i, c, rfl, ha, hb, hA, hj, hB, hi, hC⟩ := inRange_two hix
      obtain ⟨a', j', b', i', c', rfl, ha', hb', hA', hj', hB', hi', hC'⟩ := inRange_two hjx
      rw [hm a i b j c ha hb, hm a' i' b' j' c' ha' hb']
      intro he
      obtain ⟨e1, e2⟩ := List.append_inj he (by omega)
      obtain ⟨e3, e4⟩ := List.append_inj e2 (by omega)
      simp only [List.cons.injEq] at e4
      obtain ⟨rfl, rfl⟩ := divmod_inj hi hi' e4.1
      rw [e1, e3, e4.2]
    · intro jx hjx
      obtain ⟨a, t, rfl, ha, hA, ht⟩ := inRange_split2 hjx
      obtain ⟨b, k, c, rfl, hb, hB, hk, hC⟩ := inRange_split ht
      have hx0 : 0 < x := by
        rcases Nat.eq_zero_or_pos x with h0 | h0
        · simp [h0] at hk
        · exact h0
      refine ⟨a ++ (k / x) :: (b ++ (k % x) :: c), ?_, ?_⟩
      · exact (inRange_append ha).2 ⟨hA, inRange_cons.2 ⟨Nat.div_lt_of_lt_mul hk, (inRange_append hb).2
          ⟨hB, inRange_cons.2 ⟨Nat.mod_lt _ hx0, hC⟩⟩⟩⟩
      · rw [hm _ _ _ _ _ ha hb, Nat.div_add_mod']

/-- `fuse(a,b)` of two different axes: when it succeeds, the result has one axis less, and its indices
correspond one to one to those of the original with the same cells: the index along the axis of larger
stride times the smaller axis' extent, plus the index along the smaller one.  It throws exactly when
neither axis continues the other. -/
theorem C14_fuse (v : View) (a b : Nat) (hwf : v.WF) (ha : a < v.dims.length) (hb : b < v.dims.length)
    (hab : a ≠ b) (sa sb : Nat) (hsa : v.strides[a]? = some sa) (hsb : v.strides[b]? = some sb) :
    (sa < sb → v.dims[a] * sa = sb → ∃ w, v.fuse a b = .ok w ∧ w.dims.length + 1 = v.dims.length ∧
      RelabelsBij v w (mergeAt a b v.dims[a])) ∧
    (sb ≤ sa → v.dims[b] * sb = sa → ∃ w, v.fuse a b = .ok w ∧ w.dims.length + 1 = v.dims.length ∧
      RelabelsBij v w (mergeAt b a v.dims[b])) ∧
    (sa < sb → v.dims[a] * sa ≠ sb → v.fuse a b = .throw) ∧
    (sb ≤ sa → v.dims[b] * sb ≠ sa → v.fuse a b = .throw) := by
  have hwf' : v.strides.length = v.dims.length := hwf
  have ha' : a < v.strides.length := by omega
  have hb' : b < v.strides.length := by omega
  have hga : Res.get v.dims a = .ok v.dims[a] := by simp [Res.get, ha]
  have hgb : Res.get v.dims b = .ok v.dims[b] := by simp [Res.get, hb]
  have hgsa : Res.get v.strides a = .ok sa := by simp [Res.get, hsa]
  have hgsb : Res.get v.strides b = .ok sb := by simp [Res.get, hsb]
  have hsa' : v.strides[a] = sa := by rwa [List.getElem?_eq_getElem ha', Option.some.injEq] at hsa
  have hsb' : v.strides[b] = sb := by rwa [List.getElem?_eq_getElem hb', Option.some.injEq] at hsb
  have hrem : ∀ (l : List Nat) j, j < l.length → gvRemove l j = .ok (l.eraseIdx j) := by
    intro l j h; simp [gvRemove, h, List.eraseIdx_eq_take_drop_succ]
  refine ⟨?_, ?_, ?_, ?_⟩
  · intro hlt heq
    refine ⟨⟨v.off, (v.dims.set a (v.dims[a] * v.dims[b])).eraseIdx b, v.strides.eraseIdx b⟩, ?_, ?_, ?_⟩
    · simp [View.fuse, ha, hb, hga, hgb, hgsa, hgsb, hlt, heq, hrem, hb']
    · simp [List.length_eraseIdx, hb]; omega
    · exact fuse_core v.off v.dims v.strides a b hwf' ha hb hab (by rw [hsa', hsb', heq])
  · intro hle heq
    refine ⟨⟨v.off, (v.dims.set b (v.dims[b] * v.dims[a])).eraseIdx a, v.strides.eraseIdx a⟩, ?_, ?_, ?_⟩
    · simp [View.fuse, ha, hb, hga, hgb, hgsa, hgsb, Nat.not_lt.2 hle, heq, hrem, ha',
        Nat.mul_comm v.dims[a]]
    · simp [List.length_eraseIdx, ha]; omega
    · exact fuse_core v.off v.dims v.strides b a hwf' hb ha hab.symm (by rw [hsa', hsb', heq])
  · intro hlt hne
    simp [View.fuse, ha, hb, hga, hgb, hgsa, hgsb, hlt, hne]
  · intro hle hne
    simp [View.fuse, ha, hb, hga, hgb, hgsa, hgsb, Nat.not_lt.2 hle, hne]

/-- Fusing the two axes produced by a split gives back the original view. -/
theorem C14_fuse_split (v w : View) (d a : Nat) (hwf : v.WF) (ha : 0 < a) (h : v.split d a = .ok w) :
    w.fuse d (d + 1) = .ok v := by
  obtain ⟨off, dims, strides⟩ := v
  simp only [WF] at hwf
  by_cases hd : d < dims.length
  swap
  · simp [View.split, hd] at h
  obtain ⟨A, n, B, rfl, rfl, hn⟩ := split_at dims d hd
  obtain ⟨S, s, T, rfl, hS, -⟩ := split_at strides A.length (by omega)
  have hT : T.length = B.length := by simp at hwf; omega
  have h1 : gvInsert (A ++ n :: B) (A.length + 1) a = .ok (A ++ n :: a :: B) := by
    have := gvInsert_split (A ++ [n]) B a
    simpa using this
  have h2 : Res.get (S ++ s :: T) A.length = .ok s := by rw [← hS, get_split]
  have h3 : gvInsert (S ++ s :: T) A.length (s * a) = .ok (S ++ (s * a) :: s :: T) := by
    rw [← hS, gvInsert_split]
  by_cases hdiv : n % a = 0
  swap
  · simp [View.split, hdiv, Nat.pos_iff_ne_zero.1 ha, Res.get] at h
  simp only [View.split, hd, decide_true, Res.assrt_true, Res.ok_bind, get_split, Nat.pos_iff_ne_zero.1 ha,
      ne_eq, not_false_eq_true, Res.need_true, hdiv, h1, gvSet_split, h2, h3, Res.ok.injEq] at h
  subst h
  have hna : n / a * a = n := Nat.div_mul_cancel (Nat.dvd_of_mod_eq_zero hdiv)
  have g1 : Res.get (A ++ n / a :: a :: B) A.length = .ok (n / a) := get_split ..
  have g2 : Res.get (A ++ n / a :: a :: B) (A.length + 1) = .ok a := by
    have := get_split (A ++ [n / a]) B a
    simpa using this
  have g3 : Res.get (S ++ (s * a) :: s :: T) A.length = .ok (s * a) := by rw [← hS]; exact get_split ..
  have g4 : Res.get (S ++ (s * a) :: s :: T) (A.length + 1) = .ok s := by
    rw [← hS]
    have := get_split (S ++ [s * a]) T s
    simpa using this
  have g5 : (A ++ n / a :: a :: B).set (A.length + 1) (n / a * a) = A ++ n / a :: n :: B := by
    rw [List.set_append_right _ _ (by omega)]
    simp [hna]
  have g6 : ¬ (s * a < s) := by
    have := Nat.le_mul_of_pos_right s ha
    omega
  have g7 : gvRemove (S ++ (s * a) :: s :: T) A.length = .ok (S ++ s :: T) := by
    rw [← hS]; exact gvRemove_split ..
  have g8 : A.length + 1 < (A ++ n / a :: a :: B).length := by simp
  have g9 : A.length < (A ++ n / a :: a :: B).length := by simp
  simp only [View.fuse, g1, g2, g3, g4, g5, g6, g7, g8, g9, gvRemove_split, Res.ok_bind, decide_true,
    Res.assrt_true, if_false, Nat.mul_comm a s]

/-- `fuse01` merges axes 0 and 1 when axis 0 continues axis 1. -/
theorem C14_fuse01_partial (v : View) (d0 d1 s1 : Nat) (D S : List Nat) (hd : v.dims = d0 :: d1 :: D)
    (hs : v.strides = (d1 * s1) :: s1 :: S) (hl : S.length = D.length) :
    ∃ w, v.fuse01 = .ok w ∧ w.dims = (d0 * d1) :: D ∧ (0 < d1 → RelabelsBij v w (joinAt 0 d1)) := by
  obtain ⟨off, dims, strides⟩ := v
  simp only at hd hs
  subst hd hs
  refine ⟨⟨off, (d0 * d1) :: D, s1 :: S⟩, by simp [fuse01, Res.get, gvRemove, gvSet], rfl, ?_⟩
  intro h
  have := split_axis off d0 d1 s1 [] D [] S rfl hl h
  simpa [Nat.mul_comm] using this

/-- `fuse01` performs no check: on a transposed matrix it returns a view of different cells. -/
theorem C14_fuse01_fails :
    (⟨0, [2, 3], [1, 2]⟩ : View).fuse01 = .ok ⟨0, [6], [2]⟩ ∧
    ¬ (⟨0, [6], [2]⟩ : View).cells.Perm (⟨0, [2, 3], [1, 2]⟩ : View).cells := by decide

theorem chunk_ok (l : List Nat) (i n : Nat) (h : i + n ≤ l.length) :
    gvChunk l i n = .ok ((l.drop i).take n) := by
  have h1 : ¬ ((i : Int) < 0) := by omega
  have h2 : ¬ ((n : Int) = -1) := by omega
  have h3 : ¬ ((n : Int) < 0) := by omega
  have h4 : ¬ ((l.length : Int) < i + n) := by omega
  simp [gvChunk, h1, h2, h3, h4]

theorem chunk_rest (l : List Nat) (i : Nat) (h : i ≤ l.length) : gvChunk l i (-1) = .ok (l.drop i) := by
  have h1 : ¬ ((i : Int) < 0) := by omega
  have h2 : ¬ ((l.length : Int) - i < 0) := by omega
  have h4 : ¬ ((l.length : Int) < i + ((l.length : Int) - i)) := by omega
  have h5 : ((l.length : Int) - i).toNat = (l.drop i).length := by simp
  simp only [gvChunk, h1, if_false, if_true, h2, h4, or_self, h5]
  simp

/-- `fuse_chunk(i,n)`: when it succeeds the result addresses the same cells with the same
multiplicities, and the fused axis has the product of the extents. -/
theorem C14_fuse_chunk (v w : View) (i n : Nat) (hwf : v.WF) (hn : i + n ≤ v.dims.length)
    (hs : ∀ s ∈ v.strides, s < intMax) (h : v.fuseChunk i n = .ok w) :
    w.WF ∧ w.dims = v.dims.take i ++ asize ((v.dims.drop i).take n) :: v.dims.drop (i + n) ∧
      w.cells.Perm v.cells := by
  have hwf' : v.strides.length = v.dims.length := hwf
  have hc0 : ∀ l : List Nat, i + n ≤ l.length → gvChunk l 0 i = .ok (l.take i) := by
    intro l hl
    have := chunk_ok l 0 i (by omega)
    simpa using this
  have hcr : ∀ l : List Nat, i + n ≤ l.length → gvChunk l ((i : Int) + (n : Int)) (-1) = .ok (l.drop (i + n)) := by
    intro l hl
    have := chunk_rest l (i + n) hl
    simpa using this
  unfold fuseChunk at h
  rw [chunk_ok _ _ _ (by omega), chunk_ok _ _ _ hn] at h
  simp only [Res.ok_bind] at h
  obtain ⟨r, hr, h⟩ := Res.bind_eq_ok.1 h
  cases r with
  | none => simp at h
  | some p =>
    obtain ⟨s, m⟩ := p
    simp only [hc0 _ hn, hc0 v.strides (by omega), hcr _ hn, hcr v.strides (by omega), Res.ok_bind, Res.ok.injEq] at h
    have hlen : ((v.strides.drop i).take n).length = ((v.dims.drop i).take n).length := by simp [hwf']
    obtain ⟨hm, hperm⟩ := C08_fuser_partial _ _ hlen
      (fun s hs' => hs s (List.mem_of_mem_drop (List.mem_of_mem_take hs'))) s m hr
    rw [map_dot_eq_axCells _ _ hlen.symm, ← axCells_single] at hperm
    subst h
    have hwfw : (View.mk v.off (v.dims.take i ++ m :: v.dims.drop (i + n))
        (v.strides.take i ++ s :: v.strides.drop (i + n))).WF := by simp [WF, hwf']
    refine ⟨hwfw, by simp only [hm], ?_⟩
    rw [cells_eq_axCells _ hwfw, cells_eq_axCells v hwf]
    refine List.Perm.map _ ?_
    have hz1 : v.dims.zip v.strides = (v.dims.take i).zip (v.strides.take i) ++
        (((v.dims.drop i).take n).zip ((v.strides.drop i).take n) ++
          (v.dims.drop (i + n)).zip (v.strides.drop (i + n))) := by
      have e1 : ∀ l : List Nat, l = l.take i ++ ((l.drop i).take n ++ l.drop (i + n)) := by
        intro l
        rw [← List.drop_drop, List.take_append_drop, List.take_append_drop]
      conv => lhs; rw [e1 v.dims, e1 v.strides]
      rw [List.zip_append (by simp [hwf']), List.zip_append (by simp [hwf'])]
    rw [hz1]
    simp only
    rw [List.zip_append (by simp [hwf']), List.zip_cons_cons]
    refine axCells_append_congr (List.Perm.refl _) ?_
    exact axCells_append_congr (l := [(m, s)]) hperm.symm (List.Perm.refl _)

example : (⟨0, [4, 6], [6, 1]⟩ : View).split 1 3 = .ok ⟨0, [4, 2, 3], [6, 3, 1]⟩ := by decide
example : (⟨0, [4, 2, 3], [6, 3, 1]⟩ : View).fuse 1 2 = .ok ⟨0, [4, 6], [6, 1]⟩ := by decide
example : (⟨0, [4, 6], [6, 1]⟩ : View).split0 2 2 = .ok ⟨0, [2, 2, 6], [12, 6, 1]⟩ := by decide
example : (⟨0, [2, 3, 4], [4, 8, 1]⟩ : View).fuse 0 1 = .ok ⟨0, [6, 4], [4, 1]⟩ := by decide
example : (⟨0, [2, 3, 4], [5, 8, 1]⟩ : View).fuse 0 1 = .throw := by decide
example : (⟨0, [2, 3, 4], [12, 4, 1]⟩ : View).fuse01 = .ok ⟨0, [6, 4], [4, 1]⟩ := by decide
example : (⟨0, [2, 3, 4], [12, 4, 1]⟩ : View).fuseChunk 1 2 = .ok ⟨0, [2, 12], [12, 1]⟩ := by decide

/-! ## C15 -/

section
variable {M : Type _} [AddCommMonoid M]

/-- The merge loops only fuse axes that continue each other, so the cells do not change. -/
theorem axCells_merge' (d e : Nat) (s : M) (r : List (Nat × M)) :
    (axCells ((d, s) :: (e, d • s) :: r)).Perm (axCells ((d * e, s) :: r)) := by
  refine (axCells_perm (List.Perm.swap _ _ _)).trans ?_
  rw [axCells_merge, Nat.mul_comm]
end

theorem scrunchLoop_cells (a : Nat × Nat) (l : List (Nat × Nat)) :
    (axCells ((scrunchLoop a l).map fun p => (p.2, p.1))).Perm
      (axCells ((a :: l).map fun p => (p.2, p.1))) := by
  induction l generalizing a with
  | nil => obtain ⟨s, d⟩ := a; simp [scrunchLoop]
  | cons b l ih =>
    obtain ⟨s, d⟩ := a
    obtain ⟨s', d'⟩ := b
    rw [scrunchLoop]
    split
    · rename_i h
      refine (ih _).trans ?_
      subst h
      have := axCells_merge' d d' s (l.map fun p => (p.2, p.1))
      simp only [List.map_cons]
      refine List.Perm.trans this.symm ?_
      simp [Nat.mul_comm]
    · simp only [List.map_cons, axCells_cons (d := d)]
      exact List.Perm.flatMap_left _ fun i _ => (by simpa using (ih (s', d')).map _)

/-- `scrunch()` gives a view with the same cells, each with the same multiplicity. -/
theorem C15_scrunch (v : View) (hwf : v.WF) (hs : ∀ s ∈ v.strides, s < intMax) :
    v.scrunch.WF ∧ v.scrunch.cells.Perm v.cells ∧ v.scrunch.dims.length ≤ v.dims.length := by
  have hwf' : v.strides.length = v.dims.length := hwf
  have hperm := ordered_axes_perm v.strides v.dims hwf' hs
  have hswap : ∀ l k : List Nat, (l.zip k).map (fun p => (p.2, p.1)) = k.zip l := by
    intro l k
    apply List.ext_getElem
    · simp [Nat.min_comm]
    · intro i h1 h2; simp
  unfold scrunch
  dsimp only
  generalize hax : ((ordering v.strides).map fun j => (v.strides[j]?.getD 0, v.dims[j]?.getD 0)) = axes at hperm
  generalize hm : scrunchAxes axes = merged at *
  have hcells : (axCells (merged.map fun p => (p.2, p.1))).Perm (axCells (axes.map fun p => (p.2, p.1))) := by
    subst hm
    cases axes with
    | nil => simp [scrunchAxes]
    | cons a r => exact scrunchLoop_cells a r
  have hlen : merged.length ≤ axes.length := by
    subst hm
    cases axes with
    | nil => simp [scrunchAxes]
    | cons a r =>
      have : ∀ (l : List (Nat × Nat)) a, (scrunchLoop a l).length ≤ l.length + 1 := by
        intro l
        induction l with
        | nil => intro a; obtain ⟨s, d⟩ := a; simp [scrunchLoop]
        | cons b l ih =>
          intro a
          obtain ⟨s, d⟩ := a; obtain ⟨s', d'⟩ := b
          rw [scrunchLoop]
          split
          · have := ih (s, d * d'); simp; omega
          · have := ih (s', d'); simp; omega
      simpa [scrunchAxes] using this r a
  have hwfw : (View.mk v.off (merged.reverse.map Prod.snd) (merged.reverse.map Prod.fst)).WF := by simp [WF]
  refine ⟨hwfw, ?_, ?_⟩
  · rw [cells_eq_axCells _ hwfw, cells_eq_axCells v hwf]
    refine List.Perm.map _ ?_
    simp only
    rw [List.zip_map', ← hswap v.strides v.dims, List.map_reverse]
    exact (axCells_perm (List.reverse_perm _)).trans (hcells.trans (axCells_perm (hperm.map _)))
  · have h2 := hperm.length_eq
    rw [List.length_zip] at h2
    simp; omega

theorem coScrunchLoop_cells (a : Nat × Nat × Nat) (l : List (Nat × Nat × Nat)) :
    (axCells ((coScrunchLoop a l).map fun p => (p.2.2, (p.1, p.2.1)))).Perm
      (axCells ((a :: l).map fun p => (p.2.2, (p.1, p.2.1)))) := by
  induction l generalizing a with
  | nil => obtain ⟨s, t, d⟩ := a; simp [coScrunchLoop]
  | cons b l ih =>
    obtain ⟨s, t, d⟩ := a
    obtain ⟨s', t', d'⟩ := b
    rw [coScrunchLoop]
    split
    · rename_i h
      refine (ih _).trans ?_
      obtain ⟨rfl, rfl⟩ := h
      have := axCells_merge' d d' (s, t) (l.map fun p => (p.2.2, (p.1, p.2.1)))
      simp only [List.map_cons]
      refine List.Perm.trans this.symm ?_
      simp [Nat.mul_comm]
    · simp only [List.map_cons, axCells_cons (d := d)]
      exact List.Perm.flatMap_left _ fun i _ => (by simpa using (ih (s', t', d')).map _)

/-- The pairs of cells visited when two views of equal dims are walked together. -/
def pairCells (x y : View) : List (Nat × Nat) := (allIndices x.dims).map fun ix => (x.cell ix, y.cell ix)

theorem pairCells_eq (x y : View) (hx : x.WF) (hy : y.WF) (hd : x.dims = y.dims) :
    pairCells x y = (axCells (x.dims.zip (x.strides.zip y.strides))).map fun p => (x.off + p.1, y.off + p.2) := by
  obtain ⟨xo, D, S⟩ := x
  obtain ⟨yo, D', T⟩ := y
  simp only [WF] at hx hy hd
  subst hd
  simp only [pairCells, cell]
  have key : ∀ (D S T : List Nat), S.length = D.length → T.length = D.length →
      (allIndices D).map (fun ix => (dot S ix, dot T ix)) = axCells (D.zip (S.zip T)) := by
    intro D
    induction D with
    | nil => intro S T _ _; simp [allIndices, axCells]
    | cons d D ih =>
      intro S T hS hT
      match S, T, hS, hT with
      | s :: S, t :: T, hS, hT =>
        simp only [allIndices, List.map_flatMap, List.map_map, List.zip_cons_cons, axCells_cons]
        refine List.flatMap_congr fun i _ => ?_
        rw [← ih S T (by simpa using hS) (by simpa using hT), List.map_map]
        apply List.map_congr_left
        intro c _
        simp [Nat.mul_comm]
  rw [← key D S T hx hy, List.map_map]
  rfl

/-- `co_scrunch` gives two views of equal dims that, walked together, visit the same pairs of cells
with the same multiplicity. -/
theorem C15_co_scrunch (v y : View) (hv : v.WF) (hy : y.WF) (hd : v.dims = y.dims)
    (hs : ∀ s ∈ v.strides, s < intMax) :
    ∃ v' y', v.coScrunch y = .ok (v', y') ∧ v'.WF ∧ y'.WF ∧ v'.dims = y'.dims ∧
      (pairCells v' y').Perm (pairCells v y) := by
  have hv' : v.strides.length = v.dims.length := hv
  have hy' : y.strides.length = v.dims.length := by rw [hd]; exact hy
  have hperm : ((ordering v.strides).map fun j =>
      (v.strides[j]?.getD 0, y.strides[j]?.getD 0, v.dims[j]?.getD 0)).Perm
      (v.strides.zip (y.strides.zip v.dims)) := by
    have h1 : (List.range v.strides.length).map (fun j =>
        (v.strides[j]?.getD 0, y.strides[j]?.getD 0, v.dims[j]?.getD 0)) = v.strides.zip (y.strides.zip v.dims) := by
      apply List.ext_getElem
      · simp [hv', hy']
      · intro i h1 h2
        have : i < v.dims.length := by simp at h1; omega
        simp [this, hv', hy']
    rw [← h1]
    exact (ordering_spec v.strides hs).1.map _
  unfold coScrunch
  simp only [hd, decide_true, Res.assrt_true, Res.ok_bind]
  rw [hd] at hperm
  generalize hax : ((ordering v.strides).map fun j =>
    (v.strides[j]?.getD 0, y.strides[j]?.getD 0, y.dims[j]?.getD 0)) = axes at hperm
  generalize hm : coScrunchAxes axes = merged at *
  have hcells : (axCells (merged.map fun p => (p.2.2, (p.1, p.2.1)))).Perm
      (axCells (axes.map fun p => (p.2.2, (p.1, p.2.1)))) := by
    subst hm
    cases axes with
    | nil => simp [coScrunchAxes]
    | cons a r => exact coScrunchLoop_cells a r
  refine ⟨_, _, rfl, by simp [WF], by simp [WF], rfl, ?_⟩
  rw [pairCells_eq _ _ (by simp [WF]) (by simp [WF]) (by rfl), pairCells_eq v y hv hy hd]
  refine List.Perm.map _ ?_
  have e1 : (merged.reverse.map (·.2.2)).zip ((merged.reverse.map (·.1)).zip (merged.reverse.map (·.2.1)))
      = (merged.map fun p => (p.2.2, (p.1, p.2.1))).reverse := by
    rw [List.zip_map', List.zip_map', List.map_reverse]
  have e2 : v.dims.zip (v.strides.zip y.strides)
      = (v.strides.zip (y.strides.zip v.dims)).map fun p => (p.2.2, (p.1, p.2.1)) := by
    apply List.ext_getElem
    · simp [hv', hy']
    · intro i h1 h2; simp
  simp only
  rw [e1, e2, hd]
  exact (axCells_perm (List.reverse_perm _)).trans (hcells.trans (axCells_perm (hperm.map _)))

/-- Different dims are refused. -/
theorem C15_co_scrunch_refuses (v y : View) (h : v.dims ≠ y.dims) : v.coScrunch y = .throw := by
  simp [coScrunch, h]

example : (⟨0, [2, 3, 4], [12, 4, 1]⟩ : View).scrunch = ⟨0, [24], [1]⟩ := by decide
example : (⟨0, [3, 2, 4], [4, 100, 1]⟩ : View).scrunch = ⟨0, [2, 12], [100, 1]⟩ := by decide
example : (⟨0, [3, 2], [0, 1]⟩ : View).scrunch = ⟨0, [2, 3], [1, 0]⟩ := by decide
example : (⟨0, [2, 3], [3, 1]⟩ : View).coScrunch ⟨100, [2, 3], [30, 10]⟩ =
    .ok (⟨0, [6], [1]⟩, ⟨100, [6], [10]⟩) := by decide

end Cnine
