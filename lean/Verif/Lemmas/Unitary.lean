import Verif.Model.TVMore
import Verif.Spec.Unitary
import Verif.Props.Spaces
import Verif.Props.Construct
import Verif.Lemmas.TFunctions
import Mathlib.Tactic.FieldSimp

/-! # Orthogonalization with a conjugation; vectors as blocks of memory -/

namespace Cnine
namespace TV

open Finset View TFun

variable {α : Type}

section
variable [Field α] {conj root : α → α}

theorem Norms.zero (h : Norms conj root) : conj 0 = 0 := by
  have := h.add 0 0
  simpa using this

theorem Norms.neg (h : Norms conj root) (a : α) : conj (-a) = -conj a := by
  have := h.add a (-a)
  rw [add_neg_cancel, h.zero] at this
  exact (neg_eq_of_add_eq_zero_right this.symm).symm

theorem Norms.inv (h : Norms conj root) (a : α) : conj (1 / a) = 1 / conj a := by
  by_cases ha : a = 0
  · subst ha; simp [h.zero]
  · have := h.mul a (1 / a)
    rw [mul_one_div_cancel ha, h.one] at this
    exact eq_one_div_of_mul_eq_one_right this.symm

theorem Norms.sum (h : Norms conj root) (n : Nat) (f : Nat → α) : conj (∑ k ∈ range n, f k) = ∑ k ∈ range n, conj (f k) := by
  induction n with
  | zero => simp [h.zero]
  | succ n ih => rw [sum_range_succ, sum_range_succ, h.add, ih]

theorem ipc_congr {n : Nat} {f f' g g' : Nat → α} (hf : ∀ k, k < n → f k = f' k) (hg : ∀ k, k < n → g k = g' k) :
    ipc conj n f g = ipc conj n f' g' :=
  sum_congr rfl fun k hk => by rw [hf k (mem_range.1 hk), hg k (mem_range.1 hk)]

theorem ipc_symm (h : Norms conj root) (n : Nat) (f g : Nat → α) : conj (ipc conj n f g) = ipc conj n g f := by
  unfold ipc
  rw [h.sum]
  exact sum_congr rfl fun k _ => by rw [h.mul, h.invol, mul_comm]

theorem ipc_sub (n : Nat) (u f g : Nat → α) (c : α) :
    ipc conj n u (fun k => f k - c * g k) = ipc conj n u f - c * ipc conj n u g := by
  unfold ipc
  rw [mul_sum, ← sum_sub_distrib]
  exact sum_congr rfl fun k _ => by ring

theorem ipc_scale (n : Nat) (u f : Nat → α) (c : α) : ipc conj n u (fun k => c * f k) = c * ipc conj n u f := by
  unfold ipc
  rw [mul_sum]
  exact sum_congr rfl fun k _ => by ring

theorem ipc_scale_left (h : Norms conj root) (n : Nat) (u f : Nat → α) (c : α) :
    ipc conj n (fun k => c * f k) u = conj c * ipc conj n f u := by
  unfold ipc
  rw [mul_sum]
  exact sum_congr rfl fun k _ => by rw [h.mul]; ring

/-- `f` with its parts along the first `j` vectors taken off one after the other. -/
def offc (conj : α → α) (n : Nat) (B : Nat → Nat → α) (f : Nat → α) : Nat → Nat → α
  | 0 => f
  | j + 1 => fun k => offc conj n B f j k - ipc conj n (B j) (offc conj n B f j) * B j k

theorem offc_ortho {n j : Nat} {B : Nat → Nat → α} (hB : Unit conj n j B) (f : Nat → α) : ∀ i, i ≤ j → ∀ a, a < i →
    ipc conj n (B a) (offc conj n B f i) = 0 := by
  intro i
  induction i with
  | zero => intro _ a ha; omega
  | succ i ih =>
    intro hi a ha
    simp only [offc]
    rw [ipc_sub, hB a i (by omega) (by omega)]
    rcases Nat.lt_or_ge a i with h | h
    · rw [ih (by omega) a h, if_neg (by omega)]; ring
    · obtain rfl : a = i := by omega
      rw [if_pos rfl]; ring

/-- What is left is the vector less a combination of the others. -/
theorem offc_comb (n : Nat) (B : Nat → Nat → α) (f : Nat → α) (j : Nat) (k : Nat) :
    offc conj n B f j k = f k - Space.comb j (fun i => ipc conj n (B i) (offc conj n B f i)) B k := by
  induction j with
  | zero => simp [offc, Space.comb]
  | succ j ih =>
    simp only [offc, Space.comb, sum_range_succ]
    rw [ih]; simp only [Space.comb]; ring

theorem offc_congr {n : Nat} {B B' : Nat → Nat → α} {f : Nat → α} : ∀ j, (∀ i k, i < j → k < n → B i k = B' i k) →
    ∀ k, k < n → offc conj n B f j k = offc conj n B' f j k := by
  intro j
  induction j with
  | zero => intro _ k hk; rfl
  | succ j ih =>
    intro hB k hk
    have ih' := ih (fun i k hi hk => hB i k (by omega) hk)
    simp only [offc]
    rw [ih' k hk, hB j k (by omega) hk, ipc_congr (fun k hk => hB j k (by omega) hk) ih']

/-- Adding the next vector, scaled to length one. -/
theorem unit_succ (h : Norms conj root) {n j : Nat} {B : Nat → Nat → α} (hB : Unit conj n j B) (f : Nat → α)
    (hf : ipc conj n (offc conj n B f j) (offc conj n B f j) ≠ 0)
    (hj : ∀ k, k < n → B j k = 1 / root (ipc conj n (offc conj n B f j) (offc conj n B f j)) * offc conj n B f j k) :
    Unit conj n (j + 1) B := by
  set v := offc conj n B f j with hv
  set s := root (ipc conj n v v) with hs
  have hsq : s * s = ipc conj n v v := h.sq n v
  have hs0 : s ≠ 0 := fun e => hf (by rw [← hsq, e, zero_mul])
  have hreal : conj s = s := h.real n v
  have hc : conj (1 / s) = 1 / s := by rw [h.inv, hreal]
  have hjj : ipc conj n (B j) (B j) = 1 := by
    rw [ipc_congr hj hj, ipc_scale, ipc_scale_left h, hc, ← hsq]
    field_simp
  have haj : ∀ a, a < j → ipc conj n (B a) (B j) = 0 := by
    intro a ha
    rw [ipc_congr (f' := B a) (fun _ _ => rfl) hj, ipc_scale, offc_ortho hB f j le_rfl a ha, mul_zero]
  intro a b ha hb
  rcases Nat.lt_or_ge a j with h1 | h1 <;> rcases Nat.lt_or_ge b j with h2 | h2
  · exact hB a b h1 h2
  · obtain rfl : b = j := by omega
    rw [haj a h1, if_neg (by omega)]
  · obtain rfl : a = j := by omega
    rw [← ipc_symm h, haj b h2, h.zero, if_neg (by omega)]
  · obtain rfl : a = j := by omega
    obtain rfl : b = a := by omega
    rw [hjj, if_pos rfl]

/-- Combinations of combinations. -/
theorem comb_comb (j : Nat) (B g : Nat → Nat → α) (t : Nat → Nat → α) (n : Nat)
    (hB : ∀ i k, i < j → k < n → B i k = Space.comb (i + 1) (t i) g k) (c : Nat → α) :
    ∃ d, ∀ k, k < n → Space.comb j c B k = Space.comb j d g k := by
  refine ⟨fun l => ∑ i ∈ range j, c i * (if l ≤ i then t i l else 0), fun k hk => ?_⟩
  unfold Space.comb
  have e : ∀ i ∈ range j, c i * B i k = ∑ l ∈ range j, c i * (if l ≤ i then t i l else 0) * g l k := by
    intro i hi
    have hi' := mem_range.1 hi
    rw [hB i k hi' hk, Space.comb, mul_sum]
    rw [← sum_subset (s₁ := range (i + 1)) (s₂ := range j) (f := fun l => c i * (if l ≤ i then t i l else 0) * g l k)]
    · refine sum_congr rfl fun l hl => ?_
      rw [if_pos (by have := mem_range.1 hl; omega)]; ring
    · intro l hl; have := mem_range.1 hl; exact mem_range.2 (by omega)
    · intro l _ hl
      rw [if_neg (by simp at hl; omega)]; ring
  rw [sum_congr rfl e, sum_comm]
  exact sum_congr rfl fun l _ => by rw [sum_mul]

end

/-! ### blocks -/

/-- The `n` cells from `p` on hold `f`. -/
def Blk (m : Buf α) (p n : Nat) (f : Nat → α) : Prop := ∀ k, k < n → m (p + k) = some (f k)

theorem vec_cell (p n k : Nat) (h : k < n) : (new p [n]).cell [k] = p + k := by
  rw [new_cell p (Space.inRange_one.2 ⟨k, h, rfl⟩)]
  simp [position]

theorem vec_val {m : Buf α} {p n : Nat} {f : Nat → α} (h : Blk m p n f) (ix : List Nat) (hix : InRange ix (new p [n]).dims) :
    (new p [n]).val m ix = some (f (ix.headD 0)) := by
  obtain ⟨k, hk, rfl⟩ := Space.inRange_one.1 (show InRange ix [n] from hix)
  rw [View.val, vec_cell p n k hk]
  exact h k hk

theorem blk_frame {m m' : Buf α} {p n q N : Nat} {f : Nat → α} (h : Blk m p n f) (hd : p + n ≤ q ∨ q + N ≤ p)
    (hm : ∀ c, c < q ∨ q + N ≤ c → m' c = m c) : Blk m' p n f := by
  intro k hk
  rw [hm _ (by omega)]
  exact h k hk

theorem rm1 (n : Nat) : rmStrides [n] = [1] := rfl

theorem rm2 (n k : Nat) : rmStrides [n, k] = [k, 1] := by simp [rmStrides, rmStridesFrom]

theorem row_new (q n j : Nat) (hj : j < n) : (new q [n, n]).row j = .ok (new (q + n * j) [n]) := by
  have h : ((j : Int) < (n : Int)) := by omega
  simp only [View.row, new, rm1, rm2]
  rw [decide_eq_true h, Res.assrt_true, Res.ok_bind]
  rw [shift_nat, Res.ok_bind]

theorem inp_blk [CommRing α] (conj : α → α) {m : Buf α} {p p' n : Nat} {f g : Nat → α} (hf : Blk m p n f) (hg : Blk m p' n g) :
    Space.inp conj (new p [n]) (new p' [n]) m = .ok (ipc conj n f g) := by
  unfold Space.inp
  have hd : (new p [n]).dims = (new p' [n]).dims := rfl
  rw [decide_eq_true hd, Res.assrt_true, Res.ok_bind]
  rw [inpWith_eq (fun a b => conj a * b) _ _ (new_WF _ _) (new_WF _ _) hd m (fun ix => f (ix.headD 0)) (fun ix => g (ix.headD 0))
    (vec_val hf) (vec_val hg)]
  show Res.ok (((allIndices [n]).map _).sum) = _
  rw [Space.sum_one]; rfl

theorem norm2_blk [CommRing α] (conj : α → α) {m : Buf α} {p n : Nat} {f : Nat → α} (hf : Blk m p n f) :
    Space.norm2 conj (new p [n]) m = .ok (ipc conj n f f) := by
  unfold Space.norm2
  obtain ⟨l, hl, e⟩ := reduce_perm (fun t a => t + conj a * a) 0 (new p [n]) (new_WF _ _) (by
      intro x hx h0
      simp [new, rm1] at hx
      subst hx
      simp at h0) m
    (fun ix => f (ix.headD 0)) (vec_val hf)
  rw [e, foldl_add_sum (fun a => conj a * a), zero_add, (hl.map _).sum_eq, List.map_map]
  show Res.ok (((allIndices [n]).map _).sum) = _
  rw [Space.sum_one]; rfl

theorem scaled_blk (op : α → α → α) {m : Buf α} {p p' n : Nat} {f g : Nat → α} (hf : Blk m p n f) (hg : Blk m p' n g)
    (hd : p + n ≤ p' ∨ p' + n ≤ p) :
    ∃ m', View.addScaled op (new p [n]) (new p' [n]) m = .ok m' ∧ Blk m' p n (fun k => op (f k) (g k)) ∧
      ∀ c, c < p ∨ p + n ≤ c → m' c = m c := by
  obtain ⟨m', h1, h2, h3⟩ := C17_add_scaled op (new p [n]) (new p' [n]) (new_WF _ _) (new_WF _ _) rfl (new_distinct _ _)
    (by
      intro ix jx h1 h2 h
      obtain ⟨k, hk, rfl⟩ := Space.inRange_one.1 h1
      obtain ⟨l, hl, rfl⟩ := Space.inRange_one.1 h2
      rw [vec_cell _ _ _ hk, vec_cell _ _ _ hl] at h
      omega)
    m (fun ix hix => by have := vec_val hf ix hix; rw [View.val] at this; rw [this]; rfl)
    (fun ix hix => by have := vec_val hg ix hix; rw [View.val] at this; rw [this]; rfl)
  refine ⟨m', h1, ?_, fun c hc => h3 c ?_⟩
  · intro k hk
    have hk' : InRange [k] [n] := Space.inRange_one.2 ⟨k, hk, rfl⟩
    have := h2 [k] hk'
    rw [vec_cell _ _ _ hk] at this
    rw [this]
    simp only [vec_val hf [k] hk', vec_val hg [k] hk']
    rfl
  · intro ix hix e
    obtain ⟨k, hk, rfl⟩ := Space.inRange_one.1 (show InRange ix [n] from hix)
    rw [vec_cell _ _ _ hk] at e
    omega

theorem made_blk {p n : Nat} {F : List Nat → α} {m m' : Buf α} (h : Made p [n] F m m') :
    Blk m' p n (fun k => F [k]) ∧ ∀ c, c < p ∨ p + n ≤ c → m' c = m c := by
  refine ⟨fun k hk => ?_, fun c hc => h.2 c (by simpa using hc)⟩
  have := h.1 [k] (Space.inRange_one.2 ⟨k, hk, rfl⟩)
  rwa [View.val, vec_cell _ _ _ hk] at this

theorem allocZero_blk [Zero α] (m : Buf α) (p n : Nat) :
    Blk (allocZero m p n) p n (fun _ => 0) ∧ ∀ c, c < p ∨ p + n ≤ c → allocZero m p n c = m c := by
  refine ⟨fun k hk => ?_, fun c hc => ?_⟩
  · rw [allocZero, if_pos (by omega)]
  · rw [allocZero, if_neg (by omega)]

end TV
end Cnine
