import Verif.Lemmas.RtensorA
import Mathlib.Algebra.Order.Ring.Rat
import Mathlib.Data.Rat.Cast.Order

/-!
# Tensors of the old backend: layout, fills, copies, access, elementwise operations

C362-C371.
-/

namespace Cnine

variable {α : Type}

open RA

/-! ### C362: new tensors -/

/-- A new tensor has its entries in row-major order in `cells D` new cells. -/
theorem C362_raw {D : List Nat} (h : D ≠ []) (junk : Nat → α) (q : Nat) (m : Buf α) :
    ∃ x m', raw junk q D m = .ok (x, m') ∧ x.Fresh q D (fun ix => junk (q + position D ix)) m m' ∧ x.memsize = cells D ∧ x.nbu = -1 ∧
      ∀ c, q ≤ c → c < q + x.memsize → (m' c).isSome :=
  ⟨_, _, raw_ok h junk q m, ⟨rfl, rfl, raw_is h junk q m, fun _ hc => raw_off _ _ hc⟩, rfl, rfl, fun c h1 h2 => by rw [raw_at _ _ ⟨h1, h2⟩]; rfl⟩

theorem C362_no_axes (junk : Nat → α) (q : Nat) (m : Buf α) : raw junk q [] m = .ub := rfl

/-- With room for `n` slices: as before, and the array has room for `n` slices. -/
theorem C362_reserved {d : Nat} {D : List Nat} {n : Nat} (hn : d ≤ n) (junk : Nat → α) (q : Nat) (m : Buf α) :
    ∃ x m', reserved junk q n (d :: D) m = .ok (x, m') ∧ x.arr = q ∧ x.isView = false ∧
      x.Is (d :: D) (fun ix => junk (q + position (d :: D) ix)) m' ∧ n * D.prod ≤ x.memsize ∧
      (∀ c, q ≤ c → c < q + x.memsize → (m' c).isSome) ∧ ∀ c, ¬ (q ≤ c ∧ c < q + x.memsize) → m' c = m c := by
  have e : (rmStrides (d :: D)).headD 0 = D.prod := by rw [rmStrides_cons]; rfl
  have e2 : GT.roundup (D.prod * n) 32 = cells (n :: D) := by rw [← roundup_cells, List.prod_cons, Nat.mul_comm]
  have hle : (d :: D).prod ≤ (n :: D).prod := by rw [List.prod_cons, List.prod_cons]; exact Nat.mul_le_mul_right _ hn
  have hc := cells_pos (n :: D)
  refine ⟨_, _, by rw [reserved, noalloc_ok (List.cons_ne_nil _ _), Res.ok_bind], rfl, rfl, ⟨List.cons_ne_nil _ _, rfl, (compact_rm _).symm, rfl, ?_, ?_⟩, ?_, ?_, ?_⟩
  · simp only [e, e2]; omega
  · intro ix hi
    simp only [e, e2, newArr]
    have := position_lt hi
    exact raw_at _ _ ⟨Nat.le_add_right _ _, by rw [Nat.max_eq_left hc.1]; show q + _ < _; omega⟩
  · simp only [e, e2]; rw [← List.prod_cons]; exact hc.2
  · intro c h1 h2
    simp only [e, e2, newArr] at h2 ⊢
    rw [raw_at _ _ ⟨h1, by rw [Nat.max_eq_left hc.1]; exact h2⟩]; rfl
  · intro c h1
    simp only [e, e2, newArr] at h1 ⊢
    exact raw_off _ _ (by rw [Nat.max_eq_left hc.1]; exact h1)

/-- Arrays of tensors: cell `ia` holds a tensor with sizes `D` from `ia`'s number times `cells D` on; all entries lie in the new array, at different places. -/
theorem C362_array {A D : List Nat} (hA : A ≠ []) (hD : D ≠ []) (junk : Nat → α) (q : Nat) (m : Buf α) :
    ∃ x m', array junk q A D m = .ok (x, m') ∧ x.arr = q ∧ x.dims = A ++ D ∧ x.asize = A.prod * cells D ∧ x.asize ≤ x.memsize ∧
      (∀ ia id, InRange ia A → InRange id D → x.offset (ia ++ id) = .ok (position A ia * cells D + position D id) ∧
        position A ia * cells D + position D id < x.asize) ∧
      (∀ ia id ja jd, InRange ia A → InRange id D → InRange ja A → InRange jd D → x.offset (ia ++ id) = x.offset (ja ++ jd) → ia = ja ∧ id = jd) ∧
      (∀ c, q ≤ c → c < q + x.memsize → (m' c).isSome) ∧ ∀ c, ¬ (q ≤ c ∧ c < q + x.memsize) → m' c = m c := by
  cases A with
  | nil => exact absurd rfl hA
  | cons a as =>
  cases D with
  | nil => exact absurd rfl hD
  | cons d ds =>
  generalize hAA : a :: as = A at *
  generalize hDD : d :: ds = D at *
  have e1 : (rmStridesFrom 1 D).headD 0 * d = D.prod := by
    rw [← hDD, rmStridesFrom_cons, List.headD_cons, Nat.one_mul, List.prod_cons, Nat.mul_comm]
  have e2 : (rmStridesFrom (cells D) A).headD 0 * a = A.prod * cells D := by
    rw [← hAA, rmStridesFrom_cons, List.headD_cons, List.prod_cons]; ring
  have hp := cells_pos D
  have hoff : ∀ ia id, InRange ia A → InRange id D →
      (⟨q, A ++ D, rmStridesFrom (cells D) A ++ rmStridesFrom 1 D, A.prod * cells D, GT.roundup (A.prod * cells D) 32, GT.roundup (A.prod * cells D) 32, -1, false⟩ : RA).offset
        (ia ++ id) = .ok (position A ia * cells D + position D id) := by
    intro ia id h1 h2
    have l1 : (rmStridesFrom (cells D) A).length = ia.length := by rw [GT.strides_from, List.length_map, rmStrides_length, h1.length]
    have l2 : (rmStridesFrom 1 D).length = id.length := by rw [GT.strides_from, List.length_map, rmStrides_length, h2.length]
    have := GT.dot_all (rmStridesFrom (cells D) A ++ rmStridesFrom 1 D) (ia ++ id) 0 (by rw [List.length_append, List.length_append, l1, l2])
    rw [RA.offset]
    simp only
    rw [List.length_append, l1, l2, h1.length, h2.length, ← List.length_append] at this
    rw [this, Nat.zero_add, dot_append _ _ _ _ l1, dot_rmStridesFrom _ _ _ h1.length, dot_rmStridesFrom _ _ _ h2.length, Nat.one_mul, Nat.mul_comm]
  have hr : A.prod * cells D ≤ GT.roundup (A.prod * cells D) 32 ∧ 1 ≤ GT.roundup (A.prod * cells D) 32 := by
    unfold GT.roundup; omega
  refine ⟨⟨q, A ++ D, rmStridesFrom (cells D) A ++ rmStridesFrom 1 D, A.prod * cells D, GT.roundup (A.prod * cells D) 32, GT.roundup (A.prod * cells D) 32, -1, false⟩,
    newArr junk q (GT.roundup (A.prod * cells D) 32) m, ?_, rfl, rfl, rfl, hr.1, ?_, ?_, ?_, ?_⟩
  · subst hAA hDD
    simp only [array]
    rw [e1, roundup_cells, e2]
  · exact fun ia id h1 h2 => ⟨hoff ia id h1 h2, GT.pad_lt hp.2 h1 h2⟩
  · intro ia id ja jd h1 h2 h3 h4 e
    rw [hoff ia id h1 h2, hoff ja jd h3 h4] at e
    exact GT.pad_inj hp.2 h1 h2 h3 h4 (Res.ok.inj e)
  · intro c h1 h2
    have e : newArr junk q (GT.roundup (A.prod * cells D) 32) m c = some (junk c) := raw_at junk m ⟨h1, by rw [Nat.max_eq_left hr.2]; exact h2⟩
    rw [e]; rfl
  · intro c h1
    exact raw_off _ _ (by rw [Nat.max_eq_left hr.2]; exact h1)

/-- Entries of a row-major tensor lie at different places. -/
theorem C362_distinct {D ix jx : List Nat} (h : InRange ix D) (h' : InRange jx D) (e : position D ix = position D jx) : ix = jx := by
  have := GT.pick h
  rw [e, GT.pick h'] at this
  exact (Option.some.inj this).symm

example : ∃ x m', raw (fun c => (c : Int)) 100 [3, 11] (fun _ => none) = .ok (x, m') ∧ x.memsize = 64 ∧ x.strides = [11, 1] ∧ m' 163 = some 163 ∧ m' 164 = none :=
  ⟨_, _, rfl, rfl, rfl, rfl, rfl⟩

example : ∃ x m', array (fun c => (c : Int)) 0 [2, 3] [5, 7] (fun _ => none) = .ok (x, m') ∧ x.strides = [192, 64, 7, 1] ∧ x.asize = 384 :=
  ⟨_, _, rfl, rfl, rfl⟩

example : ∃ x m', reserved (fun c => (c : Int)) 0 40 [2, 3] (fun _ => none) = .ok (x, m') ∧ x.memsize = 128 := ⟨_, _, rfl, rfl⟩

/-! ### C363: fills -/

theorem fill_ok {x : RA} {D : List Nat} {f : List Nat → α} {m : Buf α} (h : x.Is D f m) (g : Nat → α) :
    ∃ m', fillArr g x x.asize m = .ok m' ∧ x.Becomes D (fun ix => g (position D ix)) m m' :=
  all_run h g _ fun _ _ _ _ => rfl

/-- The number at place `i` of the array is `f i`. -/
theorem C363_filled {D : List Nat} (h : D ≠ []) (f : Nat → α) (junk : Nat → α) (q : Nat) (m : Buf α) :
    ∃ x m', filled f junk q D m = .ok (x, m') ∧ x.Fresh q D (fun ix => f (position D ix)) m m' := by
  obtain ⟨m', h1, h2⟩ := fill_ok (raw_is h junk q m) f
  refine ⟨_, m', ?_, fresh_of rfl rfl h2⟩
  rw [filled, raw_ok h, Res.ok_bind]
  simp only
  rw [h1, Res.ok_bind]

theorem C363_zero [Zero α] {D : List Nat} (h : D ≠ []) (junk : Nat → α) (q : Nat) (m : Buf α) :
    ∃ x m', zero junk q D m = .ok (x, m') ∧ x.Fresh q D (fun _ => 0) m m' := C363_filled h (fun _ => 0) junk q m

theorem C363_ones [One α] {D : List Nat} (h : D ≠ []) (junk : Nat → α) (q : Nat) (m : Buf α) :
    ∃ x m', ones junk q D m = .ok (x, m') ∧ x.Fresh q D (fun _ => 1) m m' := C363_filled h (fun _ => 1) junk q m

theorem C363_sequential [NatCast α] {D : List Nat} (h : D ≠ []) (junk : Nat → α) (q : Nat) (m : Buf α) :
    ∃ x m', sequential junk q D m = .ok (x, m') ∧ x.Fresh q D (fun ix => (position D ix : α)) m m' := C363_filled h (fun i => (i : α)) junk q m

/-- From a pointer into other memory. -/
theorem C363_ofPtr {D : List Nat} (h : D ≠ []) (junk : Nat → α) (q p : Nat) (B : Nat → α) (m : Buf α) (hf : Free m q (cells D))
    (hB : ∀ i, i < D.prod → m (p + i) = some (B i)) :
    ∃ x m', ofPtr junk q D p m = .ok (x, m') ∧ x.Fresh q D (fun ix => B (position D ix)) m m' := by
  have hc := (cells_pos D).2
  have hout : ∀ i, i < D.prod → ¬ (q ≤ p + i ∧ p + i < q + cells D) := by
    rintro i hi ⟨h1, h2⟩
    have := hB i hi
    rw [hf _ h1 h2] at this
    cases this
  obtain ⟨m', h1, h2, h3⟩ := stdCopy_ok (allocRaw junk m q (cells D)) p D.prod q B
    (fun i hi => by rw [raw_at _ _ ⟨Nat.le_add_right _ _, by omega⟩]; rfl)
    (fun i hi => by rw [raw_off _ _ (hout i hi), hB i hi])
    (fun i hi j hj e => hout j hj ⟨by omega, by omega⟩)
  refine ⟨_, m', ?_, fresh_of rfl rfl ⟨(raw_is h junk q m).mk' fun ix hi => h2 _ (position_lt hi), fun c hc => h3 c fun i hi => not_owns hc rfl hi⟩⟩
  rw [ofPtr, raw_ok h, Res.ok_bind]
  simp only
  rw [h1, Res.ok_bind]

/-- A function applied to each entry. -/
theorem C363_mapped {x : RA} {D : List Nat} {g : List Nat → α} {m : Buf α} (hx : x.Is D g m) (f : α → α) (junk : Nat → α) (q : Nat)
    (hf : Free m q (cells D)) :
    ∃ y m', mapped f junk q x m = .ok (y, m') ∧ y.Fresh q D (fun ix => f (g ix)) m m' ∧ x.Is D g m' := by
  have hc := (cells_pos D).2
  obtain ⟨m', h1, h2⟩ := all_run (raw_is hx.ne junk q m) (fun i => f (flat D g (junk 0) i))
    (fun i m => do
      let a ← m.read (x.arr + i)
      m.write (q + i) (f a)) (by
    intro i hi m' hm
    have := hx.not_free hf (hx.owns hi)
    rw [read_ok (a := flat D g (junk 0) i), Res.ok_bind]
    rw [hm _ fun j hj _ e => this ⟨by rw [e]; exact Nat.le_add_right _ _, by rw [e]; show q + j < _; omega⟩, raw_off _ _ this, hx.at (junk 0) hi])
  refine ⟨_, m', ?_, fresh_of rfl rfl (becomes_congr h2 fun ix hi => by simp only [flat_pos hi]), hx.keep fun c hc => ?_⟩
  · rw [mapped, hx.dims, raw_ok hx.ne, Res.ok_bind]
    simp only at h1 ⊢
    rw [h1, Res.ok_bind]
  · have := hx.not_free hf hc
    rw [h2.2 c fun ho => this ⟨ho.1, by have := ho.2; simp only at this; omega⟩, raw_off _ _ this]

theorem get2 {x : RA} {a b : Nat} {f : List Nat → α} {m : Buf α} (h : x.Is [a, b] f m) {i j : Nat} (hi : i < a) (hj : j < b) :
    x.offset [i, j] = .ok (i * b + j) := by
  rw [h.offset (.cons hi (.cons hj .nil))]; simp [position]

/-- A matrix from a function of the row and the column. -/
theorem C363_ofFn (a b : Nat) (f : Nat → Nat → α) (junk : Nat → α) (q : Nat) (m : Buf α) :
    ∃ x m', ofFn f junk q [a, b] m = .ok (x, m') ∧ x.Fresh q [a, b] (fun ix => f (ix.getD 0 0) (ix.getD 1 0)) m m' := by
  have hi0 := raw_is (List.cons_ne_nil a [b]) junk q m
  obtain ⟨m', h1, h2⟩ := ix_run hi0 (fun ix => f (ix.getD 0 0) (ix.getD 1 0))
    (fun ix m => setInts ⟨q, [a, b], rmStrides [a, b], [a, b].prod, cells [a, b], cells [a, b], -1, false⟩ ix (f (ix.getD 0 0) (ix.getD 1 0)) m) (by
    intro ix hi m' _
    rw [setInts, decide_eq_true (by simp [hi.length]), Res.assrt_true, Res.ok_bind, RA.set, hi0.offset hi, Res.ok_bind])
  refine ⟨_, m', ?_, fresh_of rfl rfl h2⟩
  rw [ofFn, raw_ok (List.cons_ne_nil a [b]), Res.ok_bind]
  exact (congrArg (fun r : Res (Buf α) => r >>= fun m => Res.ok (_, m)) h1).trans rfl

example : ∃ x m', sequential (fun _ => (9 : Int)) 7 [2, 3] (fun _ => none) = .ok (x, m') ∧ m' (7 + 5) = some 5 ∧ m' (7 + 6) = some 9 := ⟨_, _, rfl, rfl, rfl⟩

example : Free (fun c => if c < 6 then some (c : Int) else none) 6 (cells [2, 3]) := fun c h1 _ => if_neg (by omega)

/-! ### C364, C365: identity matrices -/

theorem pos_zero {A ia : List Nat} (h : InRange ia A) : position A ia = 0 ↔ ∀ i ∈ ia, i = 0 := by
  induction h with
  | nil => simp [position]
  | @cons i d ia A hi ht ih =>
    have hp : 0 < A.prod := by have := position_lt ht; omega
    show i * A.prod + position A ia = 0 ↔ _
    rw [Nat.add_eq_zero_iff, ih, Nat.mul_eq_zero]
    simp [hp.ne']

/-- What `identity` makes: ones on the diagonal of the first matrix, zeros elsewhere. -/
theorem C365_what_it_does_partial [Zero α] [One α] {A : List Nat} (hA : 0 < A.prod) (n : Nat) (junk : Nat → α) (q : Nat) (m : Buf α) :
    ∃ x m', identity junk q (A ++ [n, n]) m = .ok (x, m') ∧ x.Fresh q (A ++ [n, n]) (fun ix =>
      if (∀ i ∈ ix.take A.length, i = 0) ∧ ix.getD A.length 0 = ix.getD (A.length + 1) 0 then 1 else 0) m m' := by
  generalize hD : A ++ [n, n] = D
  have hne : D ≠ [] := by rw [← hD]; simp
  have hl : D.length = A.length + 2 := by rw [← hD]; simp
  have hi0 := raw_is hne junk q m
  have hcells := cells_pos D
  have hprod : D.prod = A.prod * (n * n) := by rw [← hD]; simp
  obtain ⟨m1, h1, h2, h3⟩ := loop_cells (cells D) (fun i => q + i) (fun _ => (0 : α)) (fun i m => m.write (q + i) 0)
    (allocRaw junk m q (cells D)) (fun i _ j _ e => by omega)
    (fun i hi => by rw [raw_at _ _ ⟨Nat.le_add_right _ _, by omega⟩]; rfl) (fun _ _ _ _ => rfl)
  have hm1 : ∀ i, i < cells D → m1 (q + i) = some 0 := h2
  have hm1o : ∀ c, ¬ (q ≤ c ∧ c < q + cells D) → m1 c = m c := fun c hc => by
    rw [h3 c fun i hi e => hc ⟨by omega, by omega⟩, raw_off _ _ hc]
  have hdiag : ∀ i, i < n → i * (n + 1) < n * n := fun i hi => by
    have := two_lt (S := n) hi hi
    rw [Nat.mul_add]; omega
  have hin : ∀ i, i < n → i * (n + 1) < cells D := fun i hi => by
    have := hdiag i hi
    have : n * n ≤ D.prod := by rw [hprod]; exact Nat.le_mul_of_pos_left _ hA
    omega
  obtain ⟨m2, h4, h5, h6⟩ := loop_cells n (fun i => q + i * (n + 1)) (fun _ => (1 : α)) (fun i m => m.write (q + i * (n + 1)) 1) m1
    (fun i _ j _ e => Nat.eq_of_mul_eq_mul_right (Nat.succ_pos n) (by omega : i * (n + 1) = j * (n + 1)))
    (fun i hi => by rw [hm1 _ (hin i hi)]; rfl) (fun _ _ _ _ => rfl)
  refine ⟨_, m2, ?_, rfl, rfl, hi0.mk' ?_, ?_⟩
  · rw [identity, raw_ok hne, Res.ok_bind]
    simp only
    rw [show Res.need (decide (2 ≤ D.length)) = .ok () by rw [decide_eq_true (by omega)]; rfl, Res.ok_bind,
      show Res.get D (D.length - 1) = .ok n by rw [Res.get, hl, ← hD, List.getElem?_append_right (by omega)]; simp, Res.ok_bind,
      show Res.get D (D.length - 2) = .ok n by rw [Res.get, hl, ← hD, List.getElem?_append_right (by omega)]; simp, Res.ok_bind,
      decide_eq_true rfl, Res.assrt_true, Res.ok_bind,
      show fillArr (fun _ => (0 : α)) ⟨q, D, rmStrides D, D.prod, cells D, cells D, -1, false⟩ (cells D) (allocRaw junk m q (cells D)) = .ok m1 from h1, Res.ok_bind,
      hi0.stride (show D.length - 2 < D.length by omega), Res.ok_bind,
      show (D.drop (D.length - 2 + 1)).prod = n by
        rw [hl, show A.length + 2 - 2 + 1 = A.length + 1 by omega, ← hD, List.drop_append, List.drop_eq_nil_of_le (by omega)]; simp]
    rw [h4, Res.ok_bind]
  · intro ix hi
    have hlt : position D ix < cells D := by have := position_lt hi; omega
    subst hD
    obtain ⟨ha, hb⟩ := GT.inRange_split hi
    generalize hia : ix.take A.length = ia at *
    generalize hib : ix.drop A.length = ib at *
    have hix : ix = ia ++ ib := by rw [← hia, ← hib, List.take_append_drop]
    obtain ⟨i, ib1, hi', hb1, rfl⟩ := List.forall₂_cons_right_iff.1 hb
    obtain ⟨j, ib2, hj', hb2, rfl⟩ := List.forall₂_cons_right_iff.1 hb1
    rw [List.forall₂_nil_right_iff] at hb2
    subst hb2
    have hla := ha.length
    have hpos : position (A ++ [n, n]) ix = position A ia * (n * n) + (i * n + j) := by
      rw [hix, GT.position_app hla]; simp [position]
    have g1 : ix.getD A.length 0 = i := by rw [hix, ← hla, getD_axis]
    have g2 : ix.getD (A.length + 1) 0 = j := by
      rw [hix, ← hla, List.getD_append_right _ _ _ _ (by omega), show ia.length + 1 - ia.length = 1 by omega]; rfl
    simp only [g1, g2, hia]
    show m2 (q + position (A ++ [n, n]) ix) = _
    by_cases c : position A ia = 0 ∧ i = j
    · rw [if_pos ⟨(pos_zero ha).1 c.1, c.2⟩]
      have := h5 i hi'
      rw [hpos, c.1, ← c.2, Nat.zero_mul, Nat.zero_add, ← Nat.mul_succ]
      exact this
    · rw [if_neg fun w => c ⟨(pos_zero ha).2 w.1, w.2⟩, h6, hm1 _ hlt]
      intro k hk e
      apply c
      rw [hpos] at e
      have hk2 := hdiag k hk
      have e' : position A ia * (n * n) + (i * n + j) = 0 * (n * n) + k * (n + 1) := by omega
      obtain ⟨z1, z2⟩ := two_inj (two_lt hi' hj') hk2 e'
      refine ⟨z1, ?_⟩
      rw [Nat.mul_add, Nat.mul_one] at z2
      obtain ⟨z3, z4⟩ := two_inj hj' hk z2
      omega
  · intro c hc
    rw [h6 c, hm1o c hc]
    rintro i hi rfl
    exact hc ⟨Nat.le_add_right _ _, by have := hin i hi; omega⟩

/-- A square matrix. -/
theorem C364_identity [Zero α] [One α] (n : Nat) (junk : Nat → α) (q : Nat) (m : Buf α) :
    ∃ x m', identity junk q [n, n] m = .ok (x, m') ∧ x.Fresh q [n, n] (fun ix => if ix.getD 0 0 = ix.getD 1 0 then 1 else 0) m m' := by
  have := C365_what_it_does_partial (α := α) (A := []) (by simp) n junk q m
  simpa using this

/-- Sizes that differ are refused. -/
theorem C364_not_square [Zero α] [One α] {a b : Nat} (h : a ≠ b) (junk : Nat → α) (q : Nat) (m : Buf α) : identity junk q [a, b] m = .throw := by
  have : decide (b = a) = false := decide_eq_false (Ne.symm h)
  rw [identity, raw_ok (List.cons_ne_nil _ _), Res.ok_bind]
  show (Res.assrt (decide (b = a)) >>= fun _ => _) = _
  rw [this]; rfl

/-- Two matrices of one entry: the second is not the identity. -/
theorem C365_stack_fails : ∃ x m', identity (fun _ => (9 : Int)) 0 [2, 1, 1] (fun _ => none) = .ok (x, m') ∧ x.get [0, 0, 0] m' = .ok 1 ∧ x.get [1, 0, 0] m' = .ok 0 :=
  ⟨_, _, rfl, rfl, rfl⟩

/-- No matrices: the ones are written past the end of the array. -/
theorem C365_empty_fails : identity (fun _ => (9 : Int)) 0 [0, 6, 6] (fun _ => none) = .ub := rfl

/-! ### C366, C367: copies and views -/

/-- A copy has the same entries, in an array of its own. -/
theorem C366_copy {x : RA} {D : List Nat} {f : List Nat → α} {m : Buf α} (h : x.Is D f m) (junk : Nat → α) (q : Nat)
    (hf : Free m q (max x.memsize 1)) :
    ∃ y m', copy junk q x m = .ok (y, m') ∧ y.arr = q ∧ y.isView = false ∧ y.memsize = x.memsize ∧ y.Is D f m' ∧ x.Is D f m' ∧ y.Apart x ∧
      ∀ c, ¬ (q ≤ c ∧ c < q + max x.memsize 1) → m' c = m c := by
  have hr := h.room
  have ha := h.asize
  have hmax := Nat.le_max_left x.memsize 1
  cases hD : D.prod with
  | zero =>
    rw [hD] at ha
    have hno : ∀ ix, ¬ InRange ix D := fun ix hi => by have := position_lt hi; omega
    refine ⟨{ x with arr := q, nbu := -1, isView := false }, newArr junk q x.memsize m, ?_, rfl, rfl, rfl,
      ⟨h.ne, h.dims, h.strides, h.asize, h.room, fun ix hi => absurd hi (hno ix)⟩, h.mk' fun ix hi => absurd hi (hno ix), ?_, fun c hc => raw_off _ _ hc⟩
    · rw [copy, ha, stdCopy, if_neg (by omega)]; rfl
    · rintro c ⟨c1, c2⟩; simp only at c1 c2; omega
  | succ n =>
  have d : α := junk 0
  have hout : ∀ i, i < D.prod → ¬ (q ≤ x.arr + i ∧ x.arr + i < q + max x.memsize 1) := fun i hi => h.not_free hf (h.owns hi)
  obtain ⟨m', h1, h2, h3⟩ := stdCopy_ok (newArr junk q x.memsize m) x.arr D.prod q (flat D f d)
    (fun i hi => by rw [newArr, raw_at _ _ ⟨Nat.le_add_right _ _, by omega⟩]; rfl)
    (fun i hi => by rw [newArr, raw_off _ _ (hout i hi), h.at d hi])
    (fun i hi j hj e => hout j hj ⟨by omega, by omega⟩)
  have hrest : ∀ c, ¬ (q ≤ c ∧ c < q + max x.memsize 1) → m' c = m c := fun c hc => by
    rw [h3 c fun i hi e => hc ⟨by omega, by omega⟩, newArr, raw_off _ _ hc]
  refine ⟨{ x with arr := q, nbu := -1, isView := false }, m', ?_, rfl, rfl, rfl,
    ⟨h.ne, h.dims, h.strides, h.asize, h.room, fun ix hi => ?_⟩, h.keep fun c hc => hrest c (h.not_free hf hc), ?_, hrest⟩
  · rw [copy, h.asize]
    simp only
    rw [h1, Res.ok_bind]
  · rw [← flat_pos hi f d]; exact h2 _ (position_lt hi)
  · rintro c ⟨c1, c2⟩ hc
    simp only at c1 c2
    exact h.not_free hf hc ⟨c1, by omega⟩

/-- A view made from a tensor, or by `view()`, or by `view_as_shape` with the same sizes, is the same tensor at the same place. -/
theorem C366_views {x : RA} {D : List Nat} {f : List Nat → α} {m : Buf α} (h : x.Is D f m) :
    x.viewOf.isView = true ∧ (∀ g (m' : Buf α), x.viewOf.Is D g m' ↔ x.Is D g m') ∧
      ∃ y, x.view = .ok y ∧ y.isView = true ∧ (∀ g (m' : Buf α), y.Is D g m' ↔ x.Is D g m') := by
  have e : ∀ {y : RA}, y.arr = x.arr → y.dims = D → y.strides = rmStrides D → y.asize = D.prod → D.prod ≤ y.memsize →
      ∀ g (m' : Buf α), y.Is D g m' ↔ x.Is D g m' := fun h1 h2 h3 h4 h5 g m' =>
    ⟨fun hy => h.mk' fun ix hi => h1 ▸ hy.has ix hi, fun hx => ⟨h.ne, h2, by rw [h3, compact_rm], h4, h5, fun ix hi => h1 ▸ hx.has ix hi⟩⟩
  exact ⟨rfl, e rfl h.dims h.strides' h.asize h.room, ⟨x.arr, D, rmStrides D, D.prod, cells D, cells D, -1, true⟩,
    by rw [view, h.dims, noalloc_ok h.ne, Res.ok_bind], rfl, e rfl rfl rfl rfl (cells_pos D).2⟩

/-- The `view()` of an array of padded tensors has other strides: its entries are others. -/
theorem C367_view_of_array_fails : ∃ x m' y, array (fun c => (c : Int)) 0 [2] [3] (fun _ => none) = .ok (x, m') ∧ x.view = .ok y ∧
    x.get [1, 0] m' = .ok 32 ∧ y.get [1, 0] m' = .ok 3 := ⟨_, _, _, rfl, rfl, rfl, rfl⟩

/-- The number of copies in a batch is not kept by copies. -/
theorem C367_batch_fails : ∃ x m' y m'', batchFilled (fun _ => (0 : Int)) (fun _ => 9) 0 2 [3] (fun _ => none) = .ok (x, m') ∧ copy (fun _ => 9) 32 x m' = .ok (y, m'') ∧
    x.nbu = 2 ∧ y.nbu = -1 ∧ x.viewOf.nbu = -1 := ⟨_, _, _, _, rfl, rfl, rfl, rfl, rfl⟩

/-- Reshaping keeps the numbers in order; other totals are refused. -/
theorem C368_reshape {x : RA} {D E : List Nat} {f : List Nat → α} {m : Buf α} (h : x.Is D f m) (hE : E ≠ []) (he : E.prod = D.prod) :
    ∃ y g, x.reshape E = .ok y ∧ y.arr = x.arr ∧ y.isView = x.isView ∧ y.Is E g m ∧
      ∀ ix jx, InRange ix D → InRange jx E → position D ix = position E jx → g jx = f ix := by
  have hr : x.reshape E = .ok ⟨x.arr, E, rmStrides E, E.prod, cells E, cells E, x.nbu, x.isView⟩ := by
    rw [RA.reshape, decide_eq_true (by rw [asize_eq, he, h.asize]), Res.assrt_true, Res.ok_bind, noalloc_ok hE, Res.ok_bind]
  refine ⟨_, fun jx => f (((allIndices D)[position E jx]?).getD []), hr, rfl, rfl, ⟨hE, rfl, (compact_rm E).symm, rfl, (cells_pos E).2, ?_⟩, ?_⟩
  · intro jx hj
    obtain ⟨ix, h1, h2⟩ := GT.surj (dims := D) (he ▸ position_lt hj)
    rw [← h2, GT.pick h1]
    exact h.has ix h1
  · intro ix jx hi _ e
    simp only
    rw [← e, GT.pick hi]; rfl

theorem C368_reshape_refused {x : RA} {D E : List Nat} {f : List Nat → α} {m : Buf α} (h : x.Is D f m) (he : E.prod ≠ D.prod) : x.reshape E = .throw := by
  rw [RA.reshape, decide_eq_false (by rw [asize_eq, h.asize]; exact he)]; rfl

example : ∃ x m' y, sequential (fun _ => (9 : Int)) 7 [2, 3] (fun _ => none) = .ok (x, m') ∧ x.reshape [3, 2] = .ok y ∧ y.get [2, 1] m' = .ok 5 :=
  ⟨_, _, _, rfl, rfl, rfl⟩

/-! ### C369: access -/

theorem C369_get {x : RA} {D : List Nat} {f : List Nat → α} {m : Buf α} (h : x.Is D f m) {ix : List Nat} (hi : InRange ix D) :
    x.get ix m = .ok (f ix) ∧ x.getInts ix m = .ok (f ix) := by
  have : x.get ix m = .ok (f ix) := by rw [RA.get, h.offset hi, Res.ok_bind, read_ok (h.has ix hi)]
  exact ⟨this, by rw [getInts, decide_eq_true (by rw [h.dims, hi.length]), Res.assrt_true, Res.ok_bind, this]⟩

theorem write_is {x : RA} {D : List Nat} {f : List Nat → α} {m : Buf α} (h : x.Is D f m) {ix : List Nat} (hi : InRange ix D) (v : α) :
    ∃ m', m.write (x.arr + position D ix) v = .ok m' ∧ x.Becomes D (Function.update f ix v) m m' := by
  refine ⟨_, write_ok (h.has ix hi) v, h.mk' fun jx hj => ?_, fun c hc => if_neg (not_owns hc h.asize (position_lt hi))⟩
  by_cases c : jx = ix
  · subst c; simp
  · rw [Function.update_of_ne c]
    show (if _ then _ else _) = _
    rw [if_neg (fun e => c (C362_distinct hj hi (by omega))), h.has jx hj]

theorem C369_set {x : RA} {D : List Nat} {f : List Nat → α} {m : Buf α} (h : x.Is D f m) {ix : List Nat} (hi : InRange ix D) (v : α) :
    ∃ m', x.set ix v m = .ok m' ∧ x.setInts ix v m = .ok m' ∧ x.Becomes D (Function.update f ix v) m m' := by
  obtain ⟨m', h1, h2⟩ := write_is h hi v
  have : x.set ix v m = .ok m' := by rw [RA.set, h.offset hi, Res.ok_bind, h1]
  exact ⟨m', this, by rw [setInts, decide_eq_true (by rw [h.dims, hi.length]), Res.assrt_true, Res.ok_bind, this], h2⟩

theorem C369_inc [Add α] {x : RA} {D : List Nat} {f : List Nat → α} {m : Buf α} (h : x.Is D f m) {ix : List Nat} (hi : InRange ix D) (v : α) :
    ∃ m', x.inc ix v m = .ok m' ∧ x.incInts ix v m = .ok m' ∧ x.Becomes D (Function.update f ix (f ix + v)) m m' := by
  obtain ⟨m', h1, h2⟩ := write_is h hi (f ix + v)
  have : x.inc ix v m = .ok m' := by rw [RA.inc, h.offset hi, Res.ok_bind, incCell_ok (h.has ix hi), h1]
  exact ⟨m', this, by rw [incInts, decide_eq_true (by rw [h.dims, hi.length]), Res.assrt_true, Res.ok_bind, this], h2⟩

/-- The wrong number of indices is refused by the versions that take numbers. -/
theorem C369_wrong_number [Add α] {x : RA} {ix : List Nat} (h : x.dims.length ≠ ix.length) (v : α) (m : Buf α) :
    x.getInts ix m = .throw ∧ x.setInts ix v m = .throw ∧ x.incInts ix v m = .throw := by
  simp [getInts, setInts, incInts, h, Res.assrt]

/-- `get(i)` as a scalar. -/
theorem C369_scalar {x : RA} {n : Nat} {f : List Nat → α} {m : Buf α} (h : x.Is [n] f m) {i : Nat} (hi : i < n) : x.getScalar i m = .ok (f [i]) := by
  rw [getScalar, decide_eq_true (by rw [h.dims]; rfl), Res.assrt_true, Res.ok_bind, h.stride (n := 0) (by simp), Res.ok_bind]
  have := h.has [i] (.cons hi .nil)
  simp [position] at this
  exact read_ok this

/-! ### C370: elementwise operations -/

theorem C370_setZero [Zero α] {x : RA} {D : List Nat} {f : List Nat → α} {m : Buf α} (h : x.Is D f m) :
    ∃ m', x.setZero m = .ok m' ∧ x.Becomes D (fun _ => 0) m m' := fill_ok h fun _ => 0

theorem C370_mapSelf {x : RA} {D : List Nat} {f : List Nat → α} {m : Buf α} (h : x.Is D f m) (g : α → α) :
    ∃ m', x.mapSelf g m = .ok m' ∧ x.Becomes D (fun ix => g (f ix)) m m' := by
  rcases Nat.eq_zero_or_pos D.prod with e | e
  · refine ⟨m, by rw [mapSelf, h.asize, e]; rfl, h.mk' fun ix hi => ?_, fun _ _ => rfl⟩
    have := position_lt hi; omega
  · obtain ⟨ix, hx, _⟩ := GT.surj e
    have d := f ix
    obtain ⟨m', h1, h2⟩ := all_run h (fun i => g (flat D f d i)) (fun i m => do
      let a ← m.read (x.arr + i)
      m.write (x.arr + i) (g a)) (by
      intro i hi m' hm
      rw [read_ok (a := flat D f d i), Res.ok_bind]
      rw [hm _ fun j _ hne => by omega, h.at d hi])
    exact ⟨m', h1, becomes_congr h2 fun ix hi => by simp only [flat_pos hi]⟩

theorem C370_times [Mul α] {x : RA} {D : List Nat} {f : List Nat → α} {m : Buf α} (h : x.Is D f m) (c : α) :
    ∃ m', x.inplaceTimes c m = .ok m' ∧ x.Becomes D (fun ix => f ix * c) m m' := C370_mapSelf h (· * c)

/-- Division multiplies by the inverse. -/
theorem C370_div [Mul α] [One α] [Div α] {x : RA} {D : List Nat} {f : List Nat → α} {m : Buf α} (h : x.Is D f m) (c : α) :
    ∃ m', x.inplaceDiv c m = .ok m' ∧ x.Becomes D (fun ix => f ix * (1 / c)) m m' := C370_mapSelf h (· * (1 / c))

/-- Setting from another tensor with the same total: the numbers are taken in order. -/
theorem C370_setT {r x : RA} {D E : List Nat} {f g : List Nat → α} {m : Buf α} (hr : r.Is D f m) (hx : x.Is E g m) (he : D.prod = E.prod) (ha : r.Apart x) :
    ∃ m' h, r.setT x m = .ok m' ∧ r.Becomes D h m m' ∧ ∀ ix jx, InRange ix D → InRange jx E → position D ix = position E jx → h ix = g jx := by
  rcases Nat.eq_zero_or_pos D.prod with e | e
  · have hno : ∀ ix, ¬ InRange ix D := fun ix hi => by have := position_lt hi; omega
    refine ⟨m, f, ?_, ⟨hr, fun _ _ => rfl⟩, fun ix _ hi => absurd hi (hno ix)⟩
    rw [setT, decide_eq_true (by rw [hr.asize, hx.asize, he]), Res.assrt_true, Res.ok_bind, hr.asize, e, stdCopy, if_neg (by omega)]; rfl
  · obtain ⟨ix, h0, _⟩ := GT.surj e
    have d := f ix
    obtain ⟨m', h1, h2, h3⟩ := stdCopy_ok m x.arr D.prod r.arr (flat E g d)
      (fun i hi => by rw [hr.at d hi]; rfl) (fun i hi => hx.at d (he ▸ hi))
      (fun i hi j hj e => ha _ (hr.owns hi) (e ▸ hx.owns (he ▸ hj)))
    refine ⟨m', fun ix => flat E g d (position D ix), ?_, ⟨hr.mk' fun ix hi => h2 _ (position_lt hi), fun c hc => h3 c fun i hi => not_owns hc hr.asize hi⟩, ?_⟩
    · rw [setT, decide_eq_true (by rw [hr.asize, hx.asize, he]), Res.assrt_true, Res.ok_bind, hr.asize, h1]
    · intro ix jx _ hj e
      simp only [e, flat_pos hj]

/-- Onto itself it is undefined (`std::copy` with overlapping ranges that begin together). -/
theorem C370_setT_self {r : RA} {D : List Nat} {f : List Nat → α} {m : Buf α} (hr : r.Is D f m) (h : 0 < D.prod) : r.setT r m = .ub := by
  rw [setT, decide_eq_true rfl, Res.assrt_true, Res.ok_bind, stdCopy, if_pos ⟨Nat.le_refl _, by rw [hr.asize]; omega⟩]

/-- Two tensors with the same total, combined number by number, whether apart or at the same place. -/
theorem C370_zip (op : α → α → α) {r x : RA} {D E : List Nat} {f g : List Nat → α} {m : Buf α} (hr : r.Is D f m) (hx : x.Is E g m) (he : D.prod = E.prod)
    (ha : r.Apart x ∨ r.arr = x.arr) :
    ∃ m' h, zipT op r x m = .ok m' ∧ r.Becomes D h m m' ∧
      ∀ ix jx, InRange ix D → InRange jx E → position D ix = position E jx → h ix = op (f ix) (g jx) := by
  rcases Nat.eq_zero_or_pos D.prod with e | e
  · have hno : ∀ ix, ¬ InRange ix D := fun ix hi => by have := position_lt hi; omega
    refine ⟨m, f, ?_, ⟨hr, fun _ _ => rfl⟩, fun ix _ hi => absurd hi (hno ix)⟩
    rw [zipT, decide_eq_true (by rw [hr.asize, hx.asize, he]), Res.assrt_true, Res.ok_bind, hr.asize, e]; rfl
  · obtain ⟨ix, h0, _⟩ := GT.surj e
    have d := f ix
    obtain ⟨m', h1, h2⟩ := all_run hr (fun i => op (flat D f d i) (flat E g d i)) (fun i m => updCell op m (r.arr + i) (x.arr + i)) (by
      intro i hi m' hm
      rw [updCell_ok (a := flat D f d i) (b := flat E g d i)]
      · rw [hm _ fun j _ hne => by omega, hr.at d hi]
      · rw [hm _ fun j hj hne e => ?_, hx.at d (he ▸ hi)]
        rcases ha with ha | ha
        · exact ha _ (hr.owns hj) (e ▸ hx.owns (he ▸ hi))
        · omega)
    refine ⟨m', _, ?_, h2, ?_⟩
    · rw [zipT, decide_eq_true (by rw [hr.asize, hx.asize, he]), Res.assrt_true, Res.ok_bind, h1]
    · intro ix jx hi hj e
      rw [flat_pos hi, e, flat_pos hj]

/-- Other totals are refused. -/
theorem C370_zip_refused (op : α → α → α) {r x : RA} {D E : List Nat} {f g : List Nat → α} {m : Buf α} (hr : r.Is D f m) (hx : x.Is E g m)
    (he : D.prod ≠ E.prod) : zipT op r x m = .throw ∧ r.setT x m = .throw := by
  have : decide (r.asize = x.asize) = false := decide_eq_false (by rw [hr.asize, hx.asize]; exact he)
  rw [zipT, setT, this]; exact ⟨rfl, rfl⟩

/-- The same with equal sizes. -/
theorem zip_same (op : α → α → α) {r x : RA} {D : List Nat} {f g : List Nat → α} {m : Buf α} (hr : r.Is D f m) (hx : x.Is D g m)
    (ha : r.Apart x ∨ r.arr = x.arr) : ∃ m', zipT op r x m = .ok m' ∧ r.Becomes D (fun ix => op (f ix) (g ix)) m m' := by
  obtain ⟨m', h, h1, h2, h3⟩ := C370_zip op hr hx rfl ha
  exact ⟨m', h1, becomes_congr h2 fun ix hi => h3 ix ix hi hi rfl⟩

theorem C370_add [Add α] {r x : RA} {D : List Nat} {f g : List Nat → α} {m : Buf α} (hr : r.Is D f m) (hx : x.Is D g m)
    (ha : r.Apart x ∨ r.arr = x.arr) : ∃ m', r.add x m = .ok m' ∧ r.Becomes D (fun ix => f ix + g ix) m m' := zip_same _ hr hx ha

theorem C370_addScaled [Add α] [Mul α] {r x : RA} {D : List Nat} {f g : List Nat → α} {m : Buf α} (hr : r.Is D f m) (hx : x.Is D g m)
    (ha : r.Apart x ∨ r.arr = x.arr) (c : α) : ∃ m', r.addScaled x c m = .ok m' ∧ r.Becomes D (fun ix => f ix + g ix * c) m m' := zip_same _ hr hx ha

theorem C370_addDivide [Add α] [Mul α] [One α] [Div α] {r x : RA} {D : List Nat} {f g : List Nat → α} {m : Buf α} (hr : r.Is D f m) (hx : x.Is D g m)
    (ha : r.Apart x ∨ r.arr = x.arr) (c : α) : ∃ m', r.addDivide x c m = .ok m' ∧ r.Becomes D (fun ix => f ix + g ix * (1 / c)) m m' := zip_same _ hr hx ha

theorem C370_subtract [Sub α] {r x : RA} {D : List Nat} {f g : List Nat → α} {m : Buf α} (hr : r.Is D f m) (hx : x.Is D g m)
    (ha : r.Apart x ∨ r.arr = x.arr) : ∃ m', r.subtract x m = .ok m' ∧ r.Becomes D (fun ix => f ix - g ix) m m' := zip_same _ hr hx ha

/-- `ReLU` with slope `alpha` on the negative side. -/
theorem C370_addReLU [Ring α] [LinearOrder α] (alpha : α) {r x : RA} {D : List Nat} {f g : List Nat → α} {m : Buf α} (hr : r.Is D f m) (hx : x.Is D g m)
    (ha : r.Apart x ∨ r.arr = x.arr) : ∃ m', addReLU (fun b => decide (0 < b)) (fun b => decide (b < 0)) alpha r x m = .ok m' ∧
      r.Becomes D (fun ix => f ix + if 0 < g ix then g ix else alpha * g ix) m m' := by
  obtain ⟨m', h1, h2⟩ := zip_same (fun a b : α => a + ((if decide (0 < b) then 1 else 0) + alpha * (if decide (b < 0) then 1 else 0)) * b) hr hx ha
  refine ⟨m', h1, becomes_congr h2 fun ix _ => ?_⟩
  simp only [decide_eq_true_eq]
  rcases lt_trichotomy (g ix) 0 with c | c | c
  · rw [if_neg (not_lt_of_gt c), if_pos c]; simp [not_lt_of_gt c]
  · simp [c]
  · rw [if_pos c, if_neg (not_lt_of_gt c)]; simp [c]

/-- Three tensors with the same total. -/
theorem zip3_same (op : α → α → α → α) {r x y : RA} {D : List Nat} {f g h : List Nat → α} {m : Buf α} (hr : r.Is D f m) (hx : x.Is D g m) (hy : y.Is D h m)
    (ha : r.Apart x ∨ r.arr = x.arr) (hb : r.Apart y ∨ r.arr = y.arr) :
    ∃ m', zip3T op r x y m = .ok m' ∧ r.Becomes D (fun ix => op (f ix) (g ix) (h ix)) m m' := by
  have e0 : zip3T op r x y m = loop r.asize m (fun i m => do
      let a ← m.read (r.arr + i)
      let b ← m.read (x.arr + i)
      let c ← m.read (y.arr + i)
      m.write (r.arr + i) (op a b c)) := by
    rw [zip3T, decide_eq_true (by rw [hr.asize, hx.asize]), Res.assrt_true, Res.ok_bind, decide_eq_true (by rw [hr.asize, hy.asize]), Res.assrt_true, Res.ok_bind]
  rcases Nat.eq_zero_or_pos D.prod with e | e
  · refine ⟨m, by rw [e0, hr.asize, e]; rfl, hr.mk' fun ix hi => ?_, fun _ _ => rfl⟩
    have := position_lt hi; omega
  · obtain ⟨ix, h0, _⟩ := GT.surj e
    have d := f ix
    have get : ∀ {z : RA} {k : List Nat → α}, z.Is D k m → (r.Apart z ∨ r.arr = z.arr) → ∀ i, i < D.prod → ∀ m' : Buf α,
        (∀ c, (∀ j, j < D.prod → j ≠ i → c ≠ r.arr + j) → m' c = m c) → m'.read (z.arr + i) = .ok (flat D k d i) := by
      intro z k hz ha i hi m' hm
      refine read_ok ?_
      rw [hm _ fun j hj hne e => ?_, hz.at d hi]
      rcases ha with ha | ha
      · exact ha _ (hr.owns hj) (e ▸ hz.owns hi)
      · omega
    obtain ⟨m', h1, h2⟩ := all_run hr (fun i => op (flat D f d i) (flat D g d i) (flat D h d i)) (fun i m => do
      let a ← m.read (r.arr + i)
      let b ← m.read (x.arr + i)
      let c ← m.read (y.arr + i)
      m.write (r.arr + i) (op a b c)) (by
      intro i hi m' hm
      rw [get hr (.inr rfl) i hi m' hm, Res.ok_bind, get hx ha i hi m' hm, Res.ok_bind, get hy hb i hi m' hm, Res.ok_bind])
    exact ⟨m', by rw [e0, h1], becomes_congr h2 fun ix hi => by simp only [flat_pos hi]⟩

theorem C370_addPlus [Add α] {r x y : RA} {D : List Nat} {f g h : List Nat → α} {m : Buf α} (hr : r.Is D f m) (hx : x.Is D g m) (hy : y.Is D h m)
    (ha : r.Apart x ∨ r.arr = x.arr) (hb : r.Apart y ∨ r.arr = y.arr) :
    ∃ m', r.addPlus x y m = .ok m' ∧ r.Becomes D (fun ix => f ix + (g ix + h ix)) m m' := zip3_same _ hr hx hy ha hb

theorem C370_addMinus [Add α] [Sub α] {r x y : RA} {D : List Nat} {f g h : List Nat → α} {m : Buf α} (hr : r.Is D f m) (hx : x.Is D g m) (hy : y.Is D h m)
    (ha : r.Apart x ∨ r.arr = x.arr) (hb : r.Apart y ∨ r.arr = y.arr) :
    ∃ m', r.addMinus x y m = .ok m' ∧ r.Becomes D (fun ix => f ix + (g ix - h ix)) m m' := zip3_same _ hr hx hy ha hb

/-- The derivative of `ReLU`: `g` are the derivatives of the result, `h` the arguments. -/
theorem C370_addReLUback [Ring α] [LinearOrder α] (alpha : α) {r G x : RA} {D : List Nat} {f g h : List Nat → α} {m : Buf α} (hr : r.Is D f m)
    (hg : G.Is D g m) (hx : x.Is D h m) (ha : r.Apart G ∨ r.arr = G.arr) (hb : r.Apart x ∨ r.arr = x.arr) :
    ∃ m', addReLUback (fun b => decide (0 < b)) alpha r G x m = .ok m' ∧
      r.Becomes D (fun ix => f ix + if 0 < h ix then g ix else alpha * g ix) m m' := by
  obtain ⟨m', h1, h2⟩ := zip3_same (fun a b c : α => a + ((if decide (0 < b) then 1 else 0) + (if decide (0 < b) then 0 else 1) * alpha) * c) hr hx hg hb ha
  refine ⟨m', h1, becomes_congr h2 fun ix _ => ?_⟩
  simp only [decide_eq_true_eq]
  by_cases c : 0 < h ix <;> simp [c]

/-- A sum of tensors. -/
theorem C370_addSum [AddCommMonoid α] {r : RA} {D : List Nat} {f : List Nat → α} {m : Buf α} (hr : r.Is D f m) (v : List (RA × (List Nat → α)))
    (hv : ∀ p ∈ v, p.1.Is D p.2 m ∧ r.Apart p.1) :
    ∃ m', r.addSum (v.map Prod.fst) m = .ok m' ∧ r.Becomes D (fun ix => f ix + (v.map fun p => p.2 ix).sum) m m' := by
  induction v generalizing f m with
  | nil => exact ⟨m, rfl, becomes_congr ⟨hr, fun _ _ => rfl⟩ fun ix _ => by simp⟩
  | cons p v ih =>
    obtain ⟨hp, hap⟩ := hv p List.mem_cons_self
    obtain ⟨m1, h1, h2⟩ := C370_add hr hp (.inl hap)
    obtain ⟨m2, h3, h4⟩ := ih h2.1 fun z hz => by
      obtain ⟨a, b⟩ := hv z (List.mem_cons_of_mem _ hz)
      exact ⟨a.keep fun c hc => h2.2 c fun ho => b c ho hc, b⟩
    refine ⟨m2, ?_, becomes_congr ⟨h4.1, fun c hc => (h4.2 c hc).trans (h2.2 c hc)⟩ fun ix _ => by simp [add_assoc]⟩
    rw [addSum, List.map_cons, Res.forM_cons]
    rw [RA.add, zipT, decide_eq_true (by rw [hr.asize, hp.asize]), Res.assrt_true, Res.ok_bind] at h1
    rw [decide_eq_true (by rw [hr.asize, hp.asize]), Res.assrt_true, Res.ok_bind, h1, Res.ok_bind]
    exact h3

/-- `plus`: a new tensor. -/
theorem C370_plus [Add α] {x y : RA} {D : List Nat} {f g : List Nat → α} {m : Buf α} (hx : x.Is D f m) (hy : y.Is D g m) (junk : Nat → α) (q : Nat)
    (hf : Free m q (max x.memsize 1)) :
    ∃ z m', plus junk q x y m = .ok (z, m') ∧ z.arr = q ∧ z.isView = false ∧ z.Is D (fun ix => f ix + g ix) m' ∧ x.Is D f m' ∧ y.Is D g m' := by
  obtain ⟨z, m1, h1, h2, h3, h3', h4, h5, h6, h7⟩ := C366_copy hx junk q hf
  have hz : ∀ c, z.Owns c → q ≤ c ∧ c < q + max x.memsize 1 := fun c hc => by
    have a := hc.1
    have b := hc.2
    have := h4.room
    rw [h4.asize] at b
    have := Nat.le_max_left x.memsize 1
    omega
  have hy1 : y.Is D g m1 := hy.keep fun c hc => h7 c (hy.not_free hf hc)
  have hay : z.Apart y := fun c h1 h2 => hy.not_free hf h2 (hz c h1)
  obtain ⟨m2, h8, h9⟩ := C370_add h4 hy1 (.inl hay)
  refine ⟨z, m2, ?_, h2, h3, h9.1, h5.keep fun c hc => h9.2 c fun ho => h6 c ho hc, hy1.keep fun c hc => h9.2 c fun ho => hay c ho hc⟩
  rw [plus, h1, Res.ok_bind]
  simp only
  rw [h8, Res.ok_bind]

/-! ### C371: numbers computed from tensors -/

theorem sum_of [AddCommMonoid α] {D : List Nat} {n : Nat} (hn : n = D.prod) (G : List Nat → α) (step : Nat → α → Res α)
    (h : ∀ ix, InRange ix D → ∀ t, step (position D ix) t = .ok (t + G ix)) : loop n (0 : α) step = .ok ((allIndices D).map G).sum := by
  subst hn
  rw [loop_sum D.prod 0 step (fun i => (((allIndices D)[i]?).map G).getD 0) fun i hi t => by
    obtain ⟨ix, h1, rfl⟩ := GT.surj hi
    rw [h ix h1, GT.pick h1]; rfl]
  rw [zero_add, ← map_position_allIndices, List.map_map]
  congr 2
  exact List.map_congr_left fun ix hi => by simp only [Function.comp, GT.pick (mem_allIndices.1 hi)]; rfl

theorem C371_norm2 [NonUnitalNonAssocSemiring α] {x : RA} {D : List Nat} {f : List Nat → α} {m : Buf α} (h : x.Is D f m) :
    x.norm2 m = .ok ((allIndices D).map fun ix => f ix * f ix).sum :=
  sum_of h.asize _ _ fun ix hi t => by rw [read_ok (h.has ix hi), Res.ok_bind]

theorem C371_inp [NonUnitalNonAssocSemiring α] {r x : RA} {D : List Nat} {f g : List Nat → α} {m : Buf α} (hr : r.Is D f m) (hx : x.Is D g m) :
    r.inp x m = .ok ((allIndices D).map fun ix => f ix * g ix).sum := by
  have := sum_of hr.asize (fun ix => f ix * g ix) (fun i t => do
      let a ← m.read (r.arr + i)
      let b ← m.read (x.arr + i)
      .ok (t + a * b)) fun ix hi t => by rw [read_ok (hr.has ix hi), Res.ok_bind, read_ok (hx.has ix hi), Res.ok_bind]
  rw [inp, decide_eq_true (by rw [hr.asize, hx.asize]), Res.assrt_true, Res.ok_bind]
  split
  · next e => rw [← this, e]; rfl
  · exact this

theorem C371_diff2 [NonUnitalNonAssocRing α] {r x : RA} {D : List Nat} {f g : List Nat → α} {m : Buf α} (hr : r.Is D f m) (hx : x.Is D g m) :
    r.diff2 x m = .ok ((allIndices D).map fun ix => (f ix - g ix) * (f ix - g ix)).sum := by
  have := sum_of hr.asize (fun ix => (f ix - g ix) * (f ix - g ix)) (fun i t => do
      let a ← m.read (r.arr + i)
      let b ← m.read (x.arr + i)
      .ok (t + (a - b) * (a - b))) fun ix hi t => by rw [read_ok (hr.has ix hi), Res.ok_bind, read_ok (hx.has ix hi), Res.ok_bind]
  rw [diff2, decide_eq_true (by rw [hr.asize, hx.asize]), Res.assrt_true, Res.ok_bind]
  split
  · next e => rw [← this, e]; rfl
  · exact this

/-- The largest entry; 0 if there are none. -/
theorem C371_max [Zero α] [LinearOrder α] {x : RA} {D : List Nat} {f : List Nat → α} {m : Buf α} (h : x.Is D f m) (hp : 0 < D.prod) :
    ∃ v, x.maxT m = .ok v ∧ (∀ ix, InRange ix D → f ix ≤ v) ∧ ∃ ix, InRange ix D ∧ v = f ix := by
  obtain ⟨i0, hi0, he0⟩ := GT.surj hp
  have key : ∀ n, n ≤ D.prod → ∃ v, (loop n (f i0) fun i t => do
      let a ← m.read (x.arr + i)
      .ok (max t a)) = .ok v ∧ (∀ ix, InRange ix D → position D ix < n → f ix ≤ v) ∧ ∃ ix, InRange ix D ∧ v = f ix := by
    intro n
    induction n with
    | zero => exact fun _ => ⟨f i0, rfl, fun _ _ c => absurd c (by omega), i0, hi0, rfl⟩
    | succ n ih =>
      intro hn
      obtain ⟨v, h1, h2, jx, h3, h4⟩ := ih (by omega)
      obtain ⟨kx, hk, he⟩ := GT.surj (show n < D.prod by omega)
      refine ⟨max v (f kx), ?_, ?_, ?_⟩
      · rw [loop_snoc, h1, Res.ok_bind, ← he, read_ok (h.has kx hk), Res.ok_bind]
      · intro ix hi hlt
        rcases Nat.lt_succ_iff_lt_or_eq.1 hlt with c | c
        · exact le_trans (h2 ix hi c) (le_max_left _ _)
        · rw [C362_distinct hi hk (by omega)]; exact le_max_right _ _
      · rcases le_total v (f kx) with c | c
        · exact ⟨kx, hk, max_eq_right c⟩
        · exact ⟨jx, h3, by rw [max_eq_left c, h4]⟩
  obtain ⟨v, h1, h2, h3⟩ := key D.prod le_rfl
  refine ⟨v, ?_, fun ix hi => h2 ix hi (position_lt hi), h3⟩
  have := h.has i0 hi0
  rw [he0, Nat.add_zero] at this
  rw [maxT, if_neg (by rw [h.asize]; omega), read_ok this, Res.ok_bind, h.asize, h1]

theorem C371_max_empty [Zero α] [Max α] {x : RA} (h : x.asize = 0) (m : Buf α) : x.maxT m = .ok 0 := by rw [maxT, if_pos h]

/-- A tensor that meets the hypotheses above. -/
def RA.sample : RA := ⟨7, [2, 3], [3, 1], 6, 32, 32, -1, false⟩

theorem RA.sample_is : RA.sample.Is [2, 3] (fun ix => (position [2, 3] ix : Int) - 2) (fun c => if 7 ≤ c ∧ c < 39 then some ((c : Int) - 9) else none) :=
  ⟨by simp, rfl, rfl, rfl, by decide, fun ix hi => by
    have := position_lt hi
    simp at this
    rw [show RA.sample.arr = 7 from rfl, if_pos (by omega)]; congr 1; omega⟩

example : RA.sample.norm2 (fun c => if 7 ≤ c ∧ c < 39 then some ((c : Int) - 9) else none) = .ok 19 := by decide +kernel

example : RA.sample.maxT (fun c => if 7 ≤ c ∧ c < 39 then some ((c : Int) - 9) else none) = .ok 3 := by decide +kernel

end Cnine
