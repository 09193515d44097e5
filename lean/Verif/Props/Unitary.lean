import Verif.Lemmas.Unitary
import Mathlib.LinearAlgebra.Matrix.NonsingularInverse
import Mathlib.Data.Complex.BigOperators

/-! # C537 random unitary matrices -/

namespace Cnine
namespace TV

open Finset View TFun

variable {α : Type}

/-- The vectors and products made on the way are placed outside the result, and the products outside the vector being made. -/
structure Places (n q : Nat) (pv : Nat → Nat) (pt : Nat → Nat → Nat) : Prop where
  v : ∀ i, i < n → pv i + n ≤ q ∨ q + n * n ≤ pv i
  t : ∀ i j, j < i → i < n → pt i j + n ≤ q ∨ q + n * n ≤ pt i j
  vt : ∀ i j, j < i → i < n → pt i j + n ≤ pv i ∨ pv i + n ≤ pt i j

section
variable [Field α] {conj root : α → α}

/-- Taking off the part along one row. -/
theorem takeOff_ok {m : Buf α} {p pu t n : Nat} {f u : Nat → α} (c : α) (hf : Blk m p n f) (hu : Blk m pu n u)
    (h1 : t + n ≤ p ∨ p + n ≤ t) (h2 : t + n ≤ pu ∨ pu + n ≤ t) :
    ∃ m1 m2, timesC c t (new pu [n]) m = .ok (new t [n], m1) ∧ subtract (new p [n]) (new t [n]) m1 = .ok m2 ∧
      Blk m2 p n (fun k => f k - c * u k) ∧ ∀ x, (x < p ∨ p + n ≤ x) → (x < t ∨ t + n ≤ x) → m2 x = m x := by
  obtain ⟨z1, z2⟩ := allocZero_blk m t n
  have hu' : Blk (allocZero m t n) pu n u := blk_frame hu (by omega) z2
  obtain ⟨m1, e1, b1, r1⟩ := scaled_blk (fun a b => a + c * b) z1 hu' (by omega)
  have hf1 : Blk m1 p n f := blk_frame (blk_frame hf (by omega) z2) (by omega) r1
  obtain ⟨m2, e2, b2, r2⟩ := scaled_blk (fun a b => a - b) hf1 b1 (by omega)
  refine ⟨m1, m2, ?_, ?_, ?_, ?_⟩
  · have ha : asize (new pu [n]).dims = n := by rw [asize_eq]; simp [new]
    simp only [timesC, addTimes, ha]
    rw [show (new t (new pu [n]).dims) = new t [n] from rfl, decide_eq_true (by rw [asize_eq]; simp [new]), Res.assrt_true, Res.ok_bind,
      e1, Res.ok_bind]
  · simp only [subtract]
    rw [decide_eq_true (show asize (new p [n]).dims = asize (new t [n]).dims from rfl), Res.assrt_true, Res.ok_bind, e2]
  · intro k hk
    rw [b2 k hk]; simp
  · intro x hx ht
    rw [r2 x hx, r1 x ht, z2 x ht]

/-- One round: row `i` becomes the vector drawn, less its parts along the rows before, divided by its length. -/
theorem unitaryRow_ok (gauss junk : Nat → α) {n q i : Nat} {pv : Nat → Nat} {pt : Nat → Nat → Nat} (hp : Places n q pv pt) (hi : i < n)
    {m : Buf α} {B : Nat → Nat → α} (hB : ∀ j, j < i → Blk m (q + n * j) n (B j)) (h0 : Blk m (q + n * i) n fun _ => 0) :
    ∃ m', unitaryRow conj root gauss junk (new q [n, n]) n i (pv i) (pt i) m = .ok m' ∧
      Blk m' (q + n * i) n (fun k => 1 / root (ipc conj n (offc conj n B gauss i) (offc conj n B gauss i)) * offc conj n B gauss i k) ∧
      ∀ c, (c < q + n * i ∨ q + n * i + n ≤ c) → (c < pv i ∨ pv i + n ≤ c) → (∀ j, j < i → c < pt i j ∨ pt i j + n ≤ c) → m' c = m c := by
  have hrow : ∀ j, j < n → q ≤ q + n * j ∧ q + n * j + n ≤ q + n * n := by
    intro j hj
    have : n * (j + 1) ≤ n * n := Nat.mul_le_mul_left n hj
    rw [Nat.mul_succ] at this
    omega
  obtain ⟨m0, e0, mk⟩ := C153_gaussian (fun _ => 0) gauss junk (pv i) [n] m
  obtain ⟨b0, r0⟩ := made_blk mk
  have b0' : Blk m0 (pv i) n gauss := by
    intro k hk
    rw [b0 k hk]; simp [position]
  obtain ⟨m1, e1, b1, r1⟩ := Space.loop_inv
    (fun j m' => Blk m' (pv i) n (offc conj n B gauss j) ∧
      ∀ c, (c < pv i ∨ pv i + n ≤ c) → (∀ j, j < i → c < pt i j ∨ pt i j + n ≤ c) → m' c = m c)
    (body := fun j m => do
      let u ← (new q [n, n]).row j
      let c ← Space.inp conj u (new (pv i) [n]) m
      let (t, m) ← timesC c (pt i j) u m
      subtract (new (pv i) [n]) t m) (s := m0) ⟨b0', fun c hc _ => r0 c hc⟩ i (by
    intro j m' hj ⟨hb, hr⟩
    have hjn := hrow j (by omega)
    have hpv := hp.v i hi
    have hu : Blk m' (q + n * j) n (B j) := by
      intro k hk
      rw [hr _ (by omega) (fun j' hj' => by have := hp.t i j' hj' hi; omega)]
      exact hB j hj k hk
    have ht := hp.t i j hj hi
    have hvt := hp.vt i j hj hi
    obtain ⟨ma, mb, ea, eb, bb, rb⟩ := takeOff_ok (ipc conj n (B j) (offc conj n B gauss j)) hb hu (t := pt i j) (by omega) (by omega)
    refine ⟨mb, ?_, bb, ?_⟩
    · simp only [row_new q n j (by omega), Res.ok_bind, inp_blk conj hu hb, ea, eb]
    · intro c hc hc'
      rw [rb c hc (hc' j hj), hr c hc hc'])
  have hri := hrow i hi
  have hpv := hp.v i hi
  have hz : Blk m1 (q + n * i) n fun _ => 0 := by
    intro k hk
    rw [r1 _ (by omega) (fun j' hj' => by have := hp.t i j' hj' hi; omega)]
    exact h0 k hk
  obtain ⟨m2, e2, b2, r2⟩ := scaled_blk
    (fun a b => a + 1 / root (ipc conj n (offc conj n B gauss i) (offc conj n B gauss i)) * b) hz b1 (by omega)
  refine ⟨m2, ?_, ?_, ?_⟩
  · simp only [unitaryRow, e0, Res.ok_bind]
    rw [e1, Res.ok_bind, row_new q n i hi, Res.ok_bind, norm2_blk conj b1, Res.ok_bind, addTimes]
    rw [decide_eq_true (show asize (new (q + n * i) [n]).dims = asize (new (pv i) [n]).dims from rfl), Res.assrt_true, Res.ok_bind, e2]
  · intro k hk
    rw [b2 k hk]; simp
  · intro c hc h1 h2
    rw [r2 c hc, r1 c h1 h2]

/-- `random_unitary` gives a square matrix whose rows are of length one and orthogonal to each other, and so are its columns, provided no
vector drawn is a combination of those drawn before it.  Nothing outside the result and the places of the temporaries has changed. -/
theorem C537_unitary (hN : Norms conj root) (gauss : Nat → Nat → α) (junk : Nat → α) {n q : Nat} {pv : Nat → Nat} {pt : Nat → Nat → Nat}
    (hp : Places n q pv pt) (hg : Independent n n gauss) (m : Buf α) :
    ∃ (m' : Buf α) (B : Nat → Nat → α), randomUnitary conj root gauss junk q pv pt [n, n] m = .ok (new q [n, n], m') ∧
      (∀ i k, i < n → k < n → m' ((new q [n, n]).cell [i, k]) = some (B i k)) ∧
      (∀ a b, a < n → b < n → ∑ k ∈ range n, conj (B a k) * B b k = if a = b then 1 else 0) ∧
      (∀ a b, a < n → b < n → ∑ i ∈ range n, conj (B i a) * B i b = if a = b then 1 else 0) ∧
      ∀ c, (c < q ∨ q + n * n ≤ c) → (∀ i, i < n → c < pv i ∨ pv i + n ≤ c) →
        (∀ i j, j < i → i < n → c < pt i j ∨ pt i j + n ≤ c) → m' c = m c := by
  have ha : asize [n, n] = n * n := by rw [asize_eq]; simp
  have hrow : ∀ j, j < n → q ≤ q + n * j ∧ q + n * j + n ≤ q + n * n := by
    intro j hj
    have : n * (j + 1) ≤ n * n := Nat.mul_le_mul_left n hj
    rw [Nat.mul_succ] at this
    omega
  have hsep : ∀ i j, i < j → n * i + n ≤ n * j := by
    intro i j h
    have : n * (i + 1) ≤ n * j := Nat.mul_le_mul_left n h
    rw [Nat.mul_succ] at this
    omega
  obtain ⟨z1, z2⟩ := allocZero_blk m q (n * n)
  obtain ⟨m', e, ⟨B, t, b, u, hc, -⟩, r⟩ := Space.loop_inv
    (fun i m' => (∃ (B : Nat → Nat → α) (t : Nat → Nat → α), (∀ j, j < i → Blk m' (q + n * j) n (B j)) ∧ Unit conj n i B ∧
        (∀ j k, j < i → k < n → B j k = Space.comb (j + 1) (t j) gauss k) ∧ ∀ j, i ≤ j → j < n → Blk m' (q + n * j) n fun _ => 0) ∧
      ∀ c, (c < q ∨ q + n * n ≤ c) → (∀ i, i < n → c < pv i ∨ pv i + n ≤ c) →
        (∀ i j, j < i → i < n → c < pt i j ∨ pt i j + n ≤ c) → m' c = m c)
    (body := fun i m => unitaryRow conj root (gauss i) junk (new q [n, n]) n i (pv i) (pt i) m) (s := allocZero m q (n * n))
    ⟨⟨fun _ _ => 0, fun _ _ => 0, fun j hj => absurd hj (by omega), fun a b ha => absurd ha (by omega), fun j k hj => absurd hj (by omega),
      fun j _ hj k hk => by
        have := hrow j hj
        have := z1 (n * j + k) (by omega)
        rw [← this, Nat.add_assoc]⟩, fun c hc _ _ => z2 c hc⟩ n (by
    rintro i m1 hi ⟨⟨B, t, hb, hu, hc, hz⟩, hr⟩
    obtain ⟨m2, e2, b2, r2⟩ := unitaryRow_ok (conj := conj) (root := root) (gauss i) junk hp hi hb (hz i le_rfl hi)
    have hri := hrow i hi
    have hkeep : ∀ j, j ≠ i → j < n → ∀ k, k < n → m2 (q + n * j + k) = m1 (q + n * j + k) := by
      intro j hj hjn k hk
      have h1 := hrow j hjn
      have h2 := hp.v i hi
      apply r2
      · rcases Nat.lt_or_gt_of_ne hj with h | h
        · have := hsep _ _ h; omega
        · have := hsep _ _ h; omega
      · omega
      · intro j' hj'
        have := hp.t i j' hj' hi
        omega
    -- the new row
    let v := offc conj n B (gauss i) i
    let s := 1 / root (ipc conj n v v)
    let B' : Nat → Nat → α := fun j k => if j = i then s * v k else B j k
    have hBB : ∀ j k, j < i → B' j k = B j k := fun j k hj => if_neg (by omega)
    have hBi : ∀ k, B' i k = s * v k := fun k => if_pos rfl
    have hv' : ∀ k, k < n → offc conj n B' (gauss i) i k = v k := offc_congr i fun j k hj _ => hBB j k hj
    obtain ⟨d, hd⟩ := comb_comb i B gauss t n hc fun l => ipc conj n (B l) (offc conj n B (gauss i) l)
    have hvd : ∀ k, k < n → v k = gauss i k - Space.comb i d gauss k := by
      intro k hk
      rw [← hd k hk]
      exact offc_comb n B (gauss i) i k
    have hne : ipc conj n v v ≠ 0 := by
      intro h
      obtain ⟨k, hk, hk'⟩ := hg i hi d
      apply hk'
      have := hN.pos n v h k hk
      rw [hvd k hk] at this
      exact sub_eq_zero.1 this
    have hcong : ipc conj n (offc conj n B' (gauss i) i) (offc conj n B' (gauss i) i) = ipc conj n v v := ipc_congr hv' hv'
    refine ⟨m2, e2, ⟨B', fun j l => if j = i then (if l = i then s else -s * d l) else t j l, ?_, ?_, ?_, ?_⟩, ?_⟩
    · intro j hj k hk
      rcases Nat.lt_or_ge j i with h | h
      · rw [hkeep j (by omega) (by omega) k hk, hBB j k h]
        exact hb j h k hk
      · obtain rfl : j = i := by omega
        rw [hBi]
        exact b2 k hk
    · refine unit_succ hN (f := gauss i) ?_ (by rw [hcong]; exact hne) ?_
      · intro a b ha hb
        rw [ipc_congr (fun k _ => hBB a k ha) (fun k _ => hBB b k hb)]
        exact hu a b ha hb
      · intro k hk
        rw [hcong, hv' k hk]
        exact hBi k
    · intro j k hj hk
      rcases Nat.lt_or_ge j i with h | h
      · rw [hBB j k h, hc j k h hk]
        simp only [if_neg (show ¬ j = i by omega)]
      · obtain rfl : j = i := by omega
        rw [hBi, hvd k hk]
        simp only [Space.comb, if_pos, sum_range_succ]
        rw [mul_sub, mul_sum, sub_eq_add_neg, add_comm, ← sum_neg_distrib]
        congr 1
        refine sum_congr rfl fun l hl => ?_
        rw [if_neg (by have := mem_range.1 hl; omega)]; ring
    · intro j hj hjn k hk
      rw [hkeep j (by omega) hjn k hk]
      exact hz j (by omega) hjn k hk
    · intro c h1 h2 h3
      rw [r2 c (by omega) (h2 i hi) (fun j hj => h3 i j hj hi), hr c h1 h2 h3])
  refine ⟨m', B, ?_, ?_, u, ?_, r⟩
  · simp only [randomUnitary, ha]
    simp only [List.length_cons, List.length_nil, decide_true, Res.assrt_true, Res.ok_bind, Res.get, Res.need, List.getElem?_cons_zero,
      List.getElem?_cons_succ, Nat.zero_add, Nat.reduceAdd]
    rw [e, Res.ok_bind]
  · intro i k hi hk
    rw [new_cell q (Space.inRange_two.2 ⟨i, k, hi, hk, rfl⟩)]
    rw [show q + position [n, n] [i, k] = q + n * i + k by simp [position]; ring]
    exact b i hi k hk
  · have hM : (Matrix.of fun i k : Fin n => conj (B i k)) * (Matrix.of fun k i : Fin n => B i k) = 1 := by
      ext a c
      rw [Matrix.mul_apply, Matrix.one_apply]
      simp only [Matrix.of_apply]
      have := u a c a.2 c.2
      rw [ipc, ← Fin.sum_univ_eq_sum_range (fun k => conj (B a k) * B c k)] at this
      rw [this]
      simp [Fin.ext_iff]
    have hM' := mul_eq_one_comm.1 hM
    intro a c hac hcc
    have := congrFun (congrFun hM' ⟨c, hcc⟩) ⟨a, hac⟩
    rw [Matrix.mul_apply, Matrix.one_apply] at this
    simp only [Matrix.of_apply] at this
    rw [← Fin.sum_univ_eq_sum_range (fun i => conj (B i a) * B i c)]
    simp only [mul_comm (conj _)]
    rw [this]
    simp [eq_comm]

/-- Matrices that are not square and other shapes are refused. -/
theorem C537_refuses (gauss : Nat → Nat → α) (junk : Nat → α) (q : Nat) (pv : Nat → Nat) (pt : Nat → Nat → Nat) (dims : List Nat)
    (h : ∀ n, dims ≠ [n, n]) (m : Buf α) : randomUnitary conj root gauss junk q pv pt dims m = .throw := by
  unfold randomUnitary
  match dims, h with
  | [], _ => rfl
  | [_], _ => rfl
  | [a, b], h =>
    have : a ≠ b := fun e => h a (by rw [e])
    simp [Res.get, Res.need, Res.assrt_true, Res.ok_bind, decide_eq_false this, Res.assrt_false]
  | _ :: _ :: _ :: l, _ =>
    have : ¬ (l.length + 1 + 1 + 1 = 2) := by omega
    simp only [List.length_cons, decide_eq_false this, Res.assrt_false]
    rfl

end

/-- Real numbers with the usual square root. -/
theorem norms_real : Norms (fun a : ℝ => a) Real.sqrt where
  add _ _ := rfl
  mul _ _ := rfl
  one := rfl
  invol _ := rfl
  pos n f h k hk := by
    have := (sum_eq_zero_iff_of_nonneg fun j _ => mul_self_nonneg (f j)).1 h k (mem_range.2 hk)
    exact mul_self_eq_zero.1 this
  real _ _ := rfl
  sq n f := Real.mul_self_sqrt (sum_nonneg fun j _ => mul_self_nonneg _)

/-- Complex numbers; the square root is taken of a real number. -/
theorem norms_complex : Norms (fun z : ℂ => (starRingEnd ℂ) z) (fun z => (Real.sqrt z.re : ℂ)) := by
  have key : ∀ n (f : Nat → ℂ), ipc (fun z : ℂ => (starRingEnd ℂ) z) n f f = ((∑ k ∈ range n, Complex.normSq (f k) : ℝ) : ℂ) := by
    intro n f
    rw [ipc, Complex.ofReal_sum]
    exact sum_congr rfl fun k _ => by rw [Complex.normSq_eq_conj_mul_self]
  have hnn : ∀ n (f : Nat → ℂ), 0 ≤ ∑ k ∈ range n, Complex.normSq (f k) := fun n f => sum_nonneg fun k _ => Complex.normSq_nonneg _
  refine ⟨fun a b => map_add _ a b, fun a b => map_mul _ a b, map_one _, fun a => Complex.conj_conj a, ?_, ?_, ?_⟩
  · intro n f h k hk
    rw [key, Complex.ofReal_eq_zero] at h
    exact Complex.normSq_eq_zero.1 ((sum_eq_zero_iff_of_nonneg fun k _ => Complex.normSq_nonneg (f k)).1 h k (mem_range.2 hk))
  · intro n f
    exact Complex.conj_ofReal _
  · intro n f
    rw [key, Complex.ofReal_re, ← Complex.ofReal_mul, Real.mul_self_sqrt (hnn n f)]

/-- The rows of an upper triangular matrix with a diagonal of ones are independent. -/
example : Independent 2 2 (fun i k => if i = k then (1 : ℝ) else if i < k then 5 else 0) := by
  intro i hi c
  have : i = 0 ∨ i = 1 := by omega
  rcases this with rfl | rfl
  · exact ⟨0, by omega, by simp [Space.comb]⟩
  · by_cases h : c 0 = 0
    · exact ⟨1, by omega, by simp [Space.comb, h]⟩
    · exact ⟨0, by omega, by simp [Space.comb]; exact fun h' => h h'.symm⟩

/-- Vectors at 4 and 6, the product at 8. -/
example : Places 2 0 (fun i => 4 + 2 * i) (fun _ _ => 8) := by
  constructor
  · intro i hi; omega
  · intro i j hj hi; omega
  · intro i j hj hi; omega

/-- The real 2 by 2 matrix made from the vectors (1, 5) and (0, 1). -/
example (m : Buf ℝ) : ∃ (m' : Buf ℝ) (B : Nat → Nat → ℝ),
    randomUnitary (fun a => a) Real.sqrt (fun i k => if i = k then (1 : ℝ) else if i < k then 5 else 0) (fun _ => 0) 0 (fun i => 4 + 2 * i)
      (fun _ _ => 8) [2, 2] m = .ok (new 0 [2, 2], m') ∧
      (∀ a b, a < 2 → b < 2 → ∑ k ∈ range 2, B a k * B b k = if a = b then 1 else 0) := by
  obtain ⟨m', B, h1, -, h3, -⟩ := C537_unitary norms_real (fun i k => if i = k then (1 : ℝ) else if i < k then 5 else 0) (fun _ => 0)
    (n := 2) (q := 0) (pv := fun i => 4 + 2 * i) (pt := fun _ _ => 8)
    ⟨fun i hi => by omega, fun i j hj hi => by omega, fun i j hj hi => by omega⟩ (by
      intro i hi c
      have : i = 0 ∨ i = 1 := by omega
      rcases this with rfl | rfl
      · exact ⟨0, by omega, by simp [Space.comb]⟩
      · by_cases h : c 0 = 0
        · exact ⟨1, by omega, by simp [Space.comb, h]⟩
        · exact ⟨0, by omega, by simp [Space.comb]; exact fun h' => h h'.symm⟩) m
  exact ⟨m', B, h1, h3⟩

end TV
end Cnine
