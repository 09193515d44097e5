import Verif.Model.TVMore
import Verif.Spec.Spaces
import Verif.Props.Spaces
import Verif.Props.BGprod
import Verif.Props.Visit
import Verif.Lemmas.Unitary

/-! # C538, C541 errors of unitary matrices; C539 normalizing; C540 the largest absolute value -/

namespace Cnine
namespace TV

open Finset View TFun

variable {α : Type}

theorem list_sum [AddCommMonoid α] (n : Nat) (f : Nat → α) : ((List.range n).map f).sum = ∑ k ∈ range n, f k := by
  induction n with
  | zero => rfl
  | succ n ih => rw [List.range_succ, List.map_append, List.sum_append, ih, sum_range_succ]; simp

theorem sum_two [AddCommMonoid α] (n k : Nat) (f : Nat → Nat → α) :
    ((allIndices [n, k]).map fun ix => f (ix.getD 0 0) (ix.getD 1 0)).sum = ∑ i ∈ range n, ∑ j ∈ range k, f i j := by
  rw [allIndices]
  induction n with
  | zero => rfl
  | succ n ih =>
    rw [List.range_succ, List.flatMap_append, List.map_append, List.sum_append, ih, sum_range_succ]
    congr 1
    simp only [List.flatMap_cons, List.flatMap_nil, List.append_nil, List.map_map]
    exact Space.sum_one k _

/-! ## C538 -/

section
variable [Field α] [LinearOrder α] [IsStrictOrderedRing α]

theorem sumsq_nonneg (l : List α) : 0 ≤ (l.map fun a => a * a).sum := by
  induction l with
  | nil => simp
  | cons a l ih => simp only [List.map_cons, List.sum_cons]; have := mul_self_nonneg a; linarith

theorem sumsq_zero (l : List α) : (l.map fun a => a * a).sum = 0 ↔ ∀ a ∈ l, a = 0 := by
  induction l with
  | nil => simp
  | cons a l ih =>
    have h1 := mul_self_nonneg a
    have h2 := sumsq_nonneg l
    simp only [List.map_cons, List.sum_cons, List.mem_cons, forall_eq_or_imp]
    rw [← ih]
    constructor
    · intro h
      exact ⟨mul_self_eq_zero.1 (by linarith), by linarith⟩
    · rintro ⟨rfl, h⟩
      simpa using h

/-- The length of what is shown in a new matrix, empty ones included. -/
theorem norm_new (root : α → α) {m : Buf α} {q n : Nat} {E : Nat → Nat → α}
    (h : ∀ i j, i < n → j < n → m ((new q [n, n]).cell [i, j]) = some (E i j)) :
    norm root (new q [n, n]) m = .ok (root ((allIndices [n, n]).map fun ix => E (ix.getD 0 0) (ix.getD 1 0) * E (ix.getD 0 0) (ix.getD 1 0)).sum) := by
  unfold norm
  rcases Nat.eq_zero_or_pos n with rfl | hn
  · have : norm2View (new q [0, 0]) m = .ok (0 : α) := rfl
    rw [this]; rfl
  · rw [C19_norm2_partial (new q [n, n]) (new_WF q _) (by
      intro x hx h0
      simp [new, rmStrides, rmStridesFrom] at hx
      rcases hx with rfl | rfl
      · simp at h0; omega
      · simp at h0) m (fun ix => E (ix.getD 0 0) (ix.getD 1 0)) (by
      intro ix hix
      obtain ⟨i, j, hi, hj, rfl⟩ := Space.inRange_two.1 (show InRange ix [n, n] from hix)
      exact h i j hi hj)]
    rfl

/-- `unitary_error()` of a square matrix is the square root of the sum of the squares of the entries of `X*Xᵀ-1`; it is zero exactly when the
rows are of length one and orthogonal to each other. -/
theorem C538_error {root : α → α} (hroot : Space.Root root) {x : View} {n q : Nat} (hw : x.WF) (hd : x.dims = [n, n]) {m : Buf α}
    {X : Nat → Nat → α} (hX : ∀ i k, i < n → k < n → m (x.cell [i, k]) = some (X i k)) (ho : Outside q (n * n) x) :
    ∃ e, unitaryError root x q m = .ok e ∧ 0 ≤ e ∧
      e * e = ∑ i ∈ range n, ∑ j ∈ range n, ((∑ k ∈ range n, X i k * X j k) - if i = j then 1 else 0) ^ 2 ∧
      (e = 0 ↔ ∀ i j, i < n → j < n → ∑ k ∈ range n, X i k * X j k = if i = j then 1 else 0) := by
  obtain ⟨off, dims, strides⟩ := x
  simp only at hd
  subst hd
  match strides, hw with
  | [s0, s1], hw =>
  have ha : asize [n, n] = n * n := by rw [asize_eq]; simp
  obtain ⟨z1, z2⟩ := allocZero_blk m q (n * n)
  have hcell : ∀ i j, (new q [n, n]).cell [i, j] = q + (n * i + j) := by
    intro i j
    simp [new, View.cell, rm2]
  have hlt : ∀ i j, i < n → j < n → n * i + j < n * n := by
    intro i j hi hj
    have : n * (i + 1) ≤ n * n := Nat.mul_le_mul_left n hi
    rw [Nat.mul_succ] at this
    omega
  have hX0 : ∀ i k, i < n → k < n → allocZero m q (n * n) ((⟨off, [n, n], [s0, s1]⟩ : View).cell [i, k]) = some (X i k) := by
    intro i k hi hk
    rw [z2 _ (ho [i, k] (Space.inRange_two.2 ⟨i, k, hi, hk, rfl⟩))]
    exact hX i k hi hk
  have htc : ∀ i j, (⟨off, [n, n], [s1, s0]⟩ : View).cell [i, j] = (⟨off, [n, n], [s0, s1]⟩ : View).cell [j, i] := by
    intro i j
    simp [View.cell]
    omega
  have hap : ∀ ix, InRange ix [n, n] → (⟨off, [n, n], [s0, s1]⟩ : View).cell ix < q ∨ q + n * n ≤ (⟨off, [n, n], [s0, s1]⟩ : View).cell ix := ho
  obtain ⟨m1, e1, u1, u2⟩ := BG.viewMprod_ok (new q [n, n]) ⟨off, [n, n], [s0, s1]⟩ ⟨off, [n, n], [s1, s0]⟩ (new_WF q _) rfl rfl rfl rfl rfl
    (new_distinct q _)
    (by
      intro ix jx h1 h2 h
      obtain ⟨i, j, hi, hj, rfl⟩ := Space.inRange_two.1 (show InRange ix [n, n] from h1)
      have := hap jx h2
      have := hlt i j hi hj
      rw [hcell] at h
      omega)
    (by
      intro ix jx h1 h2 h
      obtain ⟨i, j, hi, hj, rfl⟩ := Space.inRange_two.1 (show InRange ix [n, n] from h1)
      obtain ⟨a, b, ha, hb, rfl⟩ := Space.inRange_two.1 (show InRange jx [n, n] from h2)
      have := hap [b, a] (Space.inRange_two.2 ⟨b, a, hb, ha, rfl⟩)
      have := hlt i j hi hj
      rw [hcell, htc] at h
      omega)
    (allocZero m q (n * n)) (fun _ _ => 0) X (fun i j => X j i)
    (by
      intro i hi j hj
      rw [hcell]
      exact z1 _ (hlt i j hi hj))
    (fun i hi k hk => hX0 i k hi hk)
    (by
      intro i hi k hk
      rw [htc]
      exact hX0 k i hk hi)
  let G : Nat → Nat → α := fun i j => ∑ k ∈ range n, X i k * X j k
  have hG : ∀ i j, i < n → j < n → m1 ((new q [n, n]).cell [i, j]) = some (G i j) := by
    intro i j hi hj
    rw [u1 [i, j] (Space.inRange_two.2 ⟨i, j, hi, hj, rfl⟩)]
    simp only [BG.two, List.getD_cons_zero, List.getD_cons_succ, zero_add, G]
    rw [list_sum]
  obtain ⟨m2, e2, hE⟩ := Space.loop_inv
    (fun t m' => ∀ i j, i < n → j < n → m' ((new q [n, n]).cell [i, j]) = some (G i j - if i = j ∧ i < t then 1 else 0))
    (body := fun i m => do
      let c ← (new q [n, n]).addr [i, i]
      incCell m c (-1)) (s := m1) (by
      intro i j hi hj
      rw [hG i j hi hj]; simp) n (by
      intro t m' ht hm
      have hc : (new q [n, n]).addr [t, t] = .ok ((new q [n, n]).cell [t, t]) := by
        rw [addr_eq]
        simp [new, rm2]
      have hr := hm t t ht ht
      refine ⟨fun c => if c = (new q [n, n]).cell [t, t] then some (G t t - (if t = t ∧ t < t then 1 else 0) + -1) else m' c, ?_, ?_⟩
      · rw [hc, Res.ok_bind, incCell_ok hr, write_ok hr]
      · intro i j hi hj
        by_cases hij : (new q [n, n]).cell [i, j] = (new q [n, n]).cell [t, t]
        · have := new_distinct q [n, n] _ _ (Space.inRange_two.2 ⟨i, j, hi, hj, rfl⟩) (Space.inRange_two.2 ⟨t, t, ht, ht, rfl⟩) hij
          simp only [List.cons.injEq, and_true] at this
          obtain ⟨rfl, rfl⟩ := this
          simp [sub_eq_add_neg]
        · simp only [if_neg hij]
          rw [hm i j hi hj]
          have : (i = j ∧ i < t) ↔ (i = j ∧ i < t + 1) := by
            constructor
            · rintro ⟨rfl, h⟩; exact ⟨rfl, by omega⟩
            · rintro ⟨rfl, h⟩
              refine ⟨rfl, ?_⟩
              rcases Nat.lt_or_ge i t with h' | h'
              · exact h'
              · obtain rfl : i = t := by omega
                exact absurd rfl hij
          simp only [this])
  let E : Nat → Nat → α := fun i j => G i j - if i = j then 1 else 0
  have hE' : ∀ i j, i < n → j < n → m2 ((new q [n, n]).cell [i, j]) = some (E i j) := by
    intro i j hi hj
    rw [hE i j hi hj]
    simp [E, hi]
  have hS := sum_two n n (fun i j => E i j * E i j)
  set S := ((allIndices [n, n]).map fun ix => E (ix.getD 0 0) (ix.getD 1 0) * E (ix.getD 0 0) (ix.getD 1 0)).sum with hSd
  have hS0 : 0 ≤ S := by
    rw [hS]
    exact sum_nonneg fun i _ => sum_nonneg fun j _ => mul_self_nonneg _
  obtain ⟨r1, r2⟩ := hroot S hS0
  refine ⟨root S, ?_, r1, ?_, ?_⟩
  · simp only [unitaryError, Res.get, Res.need, List.getElem?_cons_zero, List.getElem?_cons_succ, Res.ok_bind, decide_true, Res.assrt_true, ha]
    have ht : (⟨off, [n, n], [s0, s1]⟩ : View).transp = .ok ⟨off, [n, n], [s1, s0]⟩ := rfl
    rw [ht, Res.ok_bind, e1, Res.ok_bind]
    rw [e2, Res.ok_bind, norm_new root hE']
  · rw [r2, hS]
    exact sum_congr rfl fun i _ => sum_congr rfl fun j _ => by simp only [E, G, sq]
  · have : root S = 0 ↔ S = 0 := ⟨fun h => by rw [← r2, h, zero_mul], fun h => mul_self_eq_zero.1 (by rw [r2, h])⟩
    rw [this, hS, sum_eq_zero_iff_of_nonneg fun i _ => sum_nonneg fun j _ => mul_self_nonneg _]
    constructor
    · intro h i j hi hj
      have := (sum_eq_zero_iff_of_nonneg fun j _ => mul_self_nonneg _).1 (h i (mem_range.2 hi)) j (mem_range.2 hj)
      exact sub_eq_zero.1 (mul_self_eq_zero.1 this)
    · intro h i hi
      refine sum_eq_zero fun j hj => ?_
      have : E i j = 0 := sub_eq_zero.2 (h i j (mem_range.1 hi) (mem_range.1 hj))
      rw [this, mul_zero]

end

/-- A rotated 2 by 2 identity is orthonormal; all its entries doubled it is not. -/
example : (∀ i j, i < 2 → j < 2 → ∑ k ∈ range 2, (if i + k = 1 then (1 : ℚ) else 0) * (if j + k = 1 then 1 else 0) = if i = j then 1 else 0) ∧
    ¬ ∀ i j, i < 2 → j < 2 → ∑ k ∈ range 2, (if i + k = 1 then (2 : ℚ) else 0) * (if j + k = 1 then 2 else 0) = if i = j then 1 else 0 := by
  constructor
  · intro i j hi hj
    have hi' : i = 0 ∨ i = 1 := by omega
    have hj' : j = 0 ∨ j = 1 := by omega
    rcases hi' with rfl | rfl <;> rcases hj' with rfl | rfl <;> simp [sum_range_succ]
  · intro h
    have := h 0 0 (by omega) (by omega)
    simp [sum_range_succ] at this
    norm_num at this

example : ∃ e, unitaryError Real.sqrt ⟨0, [2, 2], [1, 2]⟩ 4 (fun c => if c < 4 then some (c : ℝ) else none) = .ok e ∧ 0 ≤ e ∧ e ≠ 0 := by
  obtain ⟨e, h1, h2, -, h4⟩ := C538_error (x := ⟨0, [2, 2], [1, 2]⟩) (q := 4) Space.root_sqrt rfl rfl
    (m := fun c => if c < 4 then some (c : ℝ) else none) (X := fun i k => ((i + 2 * k : Nat) : ℝ)) (by
      intro i k hi hk
      have : (⟨0, [2, 2], [1, 2]⟩ : View).cell [i, k] = i + 2 * k := by simp [View.cell]
      rw [this, if_pos (by omega)]) (by
      intro ix hix
      obtain ⟨i, k, hi, hk, rfl⟩ := Space.inRange_two.1 (show InRange ix [2, 2] from hix)
      have : (⟨0, [2, 2], [1, 2]⟩ : View).cell [i, k] = i + 2 * k := by simp [View.cell]
      rw [this]; omega)
  refine ⟨e, h1, h2, fun h => ?_⟩
  have := h4.1 h 0 0 (by omega) (by omega)
  simp [sum_range_succ] at this
  norm_num at this

/-! ## C541 -/

instance : Neg Space.QI := ⟨fun a => ⟨-a.re, -a.im⟩⟩

/-- The complex 1 by 1 matrix with entry `i` is unitary, but `unitary_error()` gives 2: the matrix is multiplied by its transpose and not by the
transpose of its conjugate. -/
theorem C541_complex_fails :
    Space.QI.conj ⟨0, 1⟩ * ⟨0, 1⟩ = (1 : Space.QI) ∧
      unitaryErrorC Space.QI.conj Space.QI.root ⟨0, [1, 1], [1, 1]⟩ 1 (fun c => if c = 0 then some ⟨0, 1⟩ else none) = .ok ⟨2, 0⟩ := by
  constructor <;> decide +kernel

/-! ## C539 -/

/-- `normalize()` divides every entry by the length of the tensor; the length is 1 afterwards. -/
theorem C539_normalize [Field α] [LinearOrder α] [IsStrictOrderedRing α] {root : α → α} (hroot : Space.Root root) (v : View) (hw : v.WF)
    (hv : v.Distinct) (hz : ∀ x ∈ v.dims.zip v.strides, x.2 = 0 → x.1 = 1) (m : Buf α) (e : List Nat → α)
    (he : ∀ ix, InRange ix v.dims → v.val m ix = some (e ix)) (hne : ∃ ix, InRange ix v.dims ∧ e ix ≠ 0) :
    ∃ s m', s * s = ((allIndices v.dims).map fun ix => e ix * e ix).sum ∧ 0 < s ∧ normalize root v m = .ok m' ∧
      (∀ ix, InRange ix v.dims → v.val m' ix = some (e ix / s)) ∧ (∀ c, (∀ ix, InRange ix v.dims → c ≠ v.cell ix) → m' c = m c) ∧
      v.norm2View m' = .ok 1 := by
  set S := ((allIndices v.dims).map fun ix => e ix * e ix).sum with hS
  have hS0 : 0 ≤ S := by
    have := sumsq_nonneg ((allIndices v.dims).map e)
    rwa [List.map_map] at this
  have hS1 : S ≠ 0 := by
    intro h
    have := (sumsq_zero ((allIndices v.dims).map e)).1 (by rw [List.map_map]; exact h)
    obtain ⟨ix, hix, h'⟩ := hne
    exact h' (this _ (List.mem_map_of_mem (mem_allIndices.2 hix)))
  obtain ⟨h1, h2⟩ := hroot S hS0
  have hs : root S ≠ 0 := fun h => hS1 (by rw [← h2, h, zero_mul])
  obtain ⟨m', e1, u1, u2⟩ := C79_inplace_times (fun x => x * (1 / root S)) v hw hv m
    (fun ix hix => by have := he ix hix; rw [View.val] at this; rw [this]; rfl)
  have hval : ∀ ix, InRange ix v.dims → v.val m' ix = some (e ix / root S) := by
    intro ix hix
    rw [View.val, u1 ix hix]
    simp only [he ix hix]
    simp [div_eq_mul_inv]
  refine ⟨root S, m', h2, lt_of_le_of_ne h1 (Ne.symm hs), ?_, hval, u2, ?_⟩
  · unfold normalize norm
    rw [C19_norm2_partial v hw hz m e he, Res.ok_bind, Res.ok_bind, e1]
  · rw [C19_norm2_partial v hw hz m' _ hval]
    have : ((allIndices v.dims).map fun ix => e ix / root S * (e ix / root S)) = ((allIndices v.dims).map fun ix => e ix * e ix).map (fun a => a * (1 / S)) := by
      rw [List.map_map]
      refine List.map_congr_left fun ix _ => ?_
      simp only [Function.comp_apply]
      rw [div_mul_div_comm, h2, div_eq_mul_one_div]
    rw [this, List.sum_map_mul_right, List.map_id', ← hS, mul_one_div_cancel hS1]

/-- Normalizing the vector (3, 4), as a tensor with one axis. -/
example : ∃ s m', s * s = 25 ∧ 0 < s ∧ normalize Real.sqrt ⟨0, [2], [1]⟩ (fun c => if c = 0 then some (3 : ℝ) else if c = 1 then some 4 else none) = .ok m' ∧
    m' 0 = some (3 / s) ∧ m' 1 = some (4 / s) := by
  obtain ⟨s, m', h1, h2, h3, h4, -, -⟩ := C539_normalize Space.root_sqrt ⟨0, [2], [1]⟩ rfl (by
      intro ix jx h1 h2 h
      obtain ⟨k, hk, rfl⟩ := Space.inRange_one.1 h1
      obtain ⟨l, hl, rfl⟩ := Space.inRange_one.1 h2
      simp [View.cell] at h
      rw [h]) (by simp) (fun c => if c = 0 then some (3 : ℝ) else if c = 1 then some 4 else none)
    (fun ix => if ix = [0] then 3 else 4) (by
      intro ix hix
      obtain ⟨k, hk, rfl⟩ := Space.inRange_one.1 (show InRange ix [2] from hix)
      have hk' : k = 0 ∨ k = 1 := by omega
      rcases hk' with rfl | rfl <;> simp [View.val, View.cell]) ⟨[0], Space.inRange_one.2 ⟨0, by omega, rfl⟩, by simp⟩
  refine ⟨s, m', ?_, h2, h3, ?_, ?_⟩
  · rw [h1]; simp [allIndices, List.range_succ]; norm_num
  · have := h4 [0] (Space.inRange_one.2 ⟨0, by omega, rfl⟩)
    simpa [View.val, View.cell] using this
  · have := h4 [1] (Space.inRange_one.2 ⟨1, by omega, rfl⟩)
    simpa [View.val, View.cell] using this

/-! ## C540 -/

/-- `max_abs()` is the largest of the absolute values of the entries, and 0 for a tensor without entries. -/
theorem C540_max_abs [AddCommGroup α] [LinearOrder α] [IsOrderedAddMonoid α] (v : View) (hw : v.WF)
    (hz : ∀ x ∈ v.dims.zip v.strides, x.2 = 0 → x.1 = 1) (m : Buf α) (e : List Nat → α)
    (he : ∀ ix, InRange ix v.dims → v.val m ix = some (e ix)) :
    ∃ t, maxAbs (fun a => |a|) (fun a b => decide (a < b)) v m = .ok t ∧ ((∀ ix, ¬ InRange ix v.dims) → t = 0) ∧
      ((∃ ix, InRange ix v.dims) → ∃ ix, InRange ix v.dims ∧ t = |e ix|) ∧ ∀ ix, InRange ix v.dims → |e ix| ≤ t := by
  unfold maxAbs
  by_cases hp : asize v.dims = 0
  · rw [if_pos hp]
    rw [asize_eq] at hp
    have hno : ∀ ix, ¬ InRange ix v.dims := fun ix hix => by have := position_lt hix; omega
    exact ⟨0, rfl, fun _ => rfl, fun ⟨ix, h⟩ => absurd h (hno ix), fun ix h => absurd h (hno ix)⟩
  · rw [if_neg hp]
    rw [asize_eq] at hp
    have hpd := pos_of_prod_pos (Nat.pos_of_ne_zero hp)
    have h0 : InRange (v.dims.map fun _ => 0) v.dims := by
      generalize v.dims = D at hpd
      induction D with
      | nil => exact inRange_nil
      | cons d D ih => exact inRange_cons.2 ⟨hpd d (by simp), ih fun d h => hpd d (by simp [h])⟩
    have hc0 : v.cell (v.dims.map fun _ => 0) = v.off := by
      have : ∀ (s D : List Nat), dot s (D.map fun _ => 0) = 0 := by
        intro s D
        induction D generalizing s with
        | nil => simp
        | cons d D ih => cases s with
          | nil => simp
          | cons a s => rw [List.map_cons, dot_cons, ih, Nat.mul_zero]
      rw [View.cell, this, Nat.add_zero]
    have hr0 := he _ h0
    simp only [View.val, hc0] at hr0
    simp only [Buf.read, hr0, Res.ok_bind]
    obtain ⟨l, hl, h⟩ := reduce_perm (fun t a => if decide (t < |a|) then |a| else t) (e (v.dims.map fun _ => 0)) v hw hz m e he
    refine ⟨_, h, fun hno => absurd h0 (hno _), fun _ => ?_, ?_⟩
    all_goals
      simp only [decide_eq_true_eq]
      rw [← List.foldl_map (f := fun a => |a|) (g := fun t a => if t < a then a else t)]
      obtain ⟨h1, h2, h3⟩ := foldl_max (l.map fun a => |a|) (e (v.dims.map fun _ => 0))
    · have hmem : |e (v.dims.map fun _ => 0)| ∈ l.map fun a => |a| :=
        List.mem_map_of_mem (hl.mem_iff.2 (List.mem_map_of_mem (mem_allIndices.2 h0)))
      rcases h1 with h1 | h1
      · refine ⟨_, h0, le_antisymm ?_ (h3 _ hmem)⟩
        rw [h1]
        exact le_abs_self _
      · obtain ⟨a, ha, ea⟩ := List.mem_map.1 h1
        obtain ⟨ix, hix, rfl⟩ := List.mem_map.1 (hl.mem_iff.1 ha)
        exact ⟨ix, mem_allIndices.1 hix, ea.symm⟩
    · intro ix hix
      exact h3 _ (List.mem_map_of_mem (hl.mem_iff.2 (List.mem_map_of_mem (mem_allIndices.2 hix))))

/-- The entry furthest from zero is negative. -/
example : maxAbs (fun a : ℤ => |a|) (fun a b => decide (a < b)) ⟨0, [2, 2], [1, 2]⟩
    (fun c => if c = 2 then some (-7) else if c < 4 then some (c : ℤ) else none) = .ok 7 := by decide +kernel

end TV
end Cnine
