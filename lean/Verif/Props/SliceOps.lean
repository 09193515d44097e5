import Verif.Lemmas.SliceOps
import Mathlib.Tactic.LinearCombination

/-!
# Properties C217–C223: scaling slices and Givens rotations of slices

`F` gives the entries of the view `x`, whose first axis has the size `n0`.  Operation number `k` of `n` concerns the slices `P k` and
`Q k` with the coefficients `C k` and `S k`.
-/

namespace Cnine
namespace SliceOps

open Conv Finset

variable {α : Type}

/-! ### a concrete case: a `3 × 2` matrix, two operations -/

theorem holds_of {x : SV} {m : Buf α} {F : List Nat → α} (h : ∀ ix ∈ allIndices x.dims, x.val m ix = some (F ix)) : x.Holds m F :=
  fun ix hix => h ix (mem_allIndices.2 hix)

theorem inj_of {x : SV} (h : ∀ ix ∈ allIndices x.dims, ∀ jx ∈ allIndices x.dims, x.cell ix = x.cell jx → ix = jx) : x.Inj :=
  fun ix jx hix hjx => h ix (mem_allIndices.2 hix) jx (mem_allIndices.2 hjx)

theorem apart_of {x y : SV} (h : ∀ ix ∈ allIndices x.dims, ∀ jx ∈ allIndices y.dims, x.cell ix ≠ y.cell jx) : x.Apart y :=
  fun ix jx hix hjx => h ix (mem_allIndices.2 hix) jx (mem_allIndices.2 hjx)

/-- The matrix at 0, coefficients at 6 and 8, the same for the way back at 10. -/
def exMem : Buf Int := Buf.ofList [1, 2, 3, 4, 5, 6, 0, 1, -1, 0, -1, 0, 0, -1]
/-- The pairs `(0,1)` and `(2,0)`, and the same in the opposite order. -/
def exInd : Buf Int := Buf.ofList [0, 1, 2, 0, 2, 0, 0, 1]
def exX : SV := ⟨0, [3, 2], [2, 1]⟩
def exX3 : SV := ⟨0, [3, 2, 1], [2, 1, 1]⟩
def exP (k : Nat) : Nat := if k = 0 then 0 else 2
def exQ (k : Nat) : Nat := if k = 0 then 1 else 0
def exC (k : Nat) : Int := if k = 0 then 0 else -1
def exS (k : Nat) : Int := if k = 0 then 1 else 0
def exF (ix : List Nat) : Int := 1 + 2 * ix.headD 0 + ix.tail.headD 0

theorem ex_data : Data exX [3, 2] exMem exF := ⟨rfl, rfl, inj_of (by decide), holds_of (by decide)⟩
theorem ex_data3 : Data exX3 [3, 2, 1] exMem exF := ⟨rfl, rfl, inj_of (by decide), holds_of (by decide)⟩
theorem ex_ind : Pairs ⟨0, [2, 2], [2, 1]⟩ 2 exInd (fun k => (exP k : Int)) (fun k => (exQ k : Int)) := ⟨rfl, rfl, holds_of (by decide)⟩
theorem ex_cs : Pairs ⟨6, [2, 2], [2, 1]⟩ 2 exMem exC exS := ⟨rfl, rfl, holds_of (by decide)⟩
theorem ex_in : ∀ k, k < 2 → exP k < 3 ∧ exQ k < 3 ∧ exP k ≠ exQ k := by decide
theorem ex_unit : ∀ k, k < 2 → exC k * exC k + exS k * exS k = 1 := by decide

/-! ### C217 scaling -/

/-- Every entry is multiplied by the coefficients given for its slice; nothing else changes. -/
theorem C217_scale2 [CommMonoid α] {x ind cs : SV} {n0 n1 n : Nat} {mi : Buf Int} {m : Buf α} {F : List Nat → α} {P : Nat → Nat}
    {C : Nat → α} (hx : Data x [n0, n1] m F) (hi : Lists ind n mi fun k => (P k : Int)) (hc : Lists cs n m C) (ha : cs.Apart x)
    (hP : ∀ k, k < n → P k < n0) :
    ∃ m', scale2 x ind cs mi m = .ok m' ∧ x.Becomes (fun jx => F jx * ∏ k ∈ range n with P k = jx.headD 0, C k) m m' := by
  obtain ⟨m', e, b⟩ := scale2_run hx hi hc ha hP
  exact ⟨m', e, becomes_unc hx.2.1 b fun a _ ix _ => after_scale P C _ a ix n⟩

theorem C217_scale3 [CommMonoid α] {x ind cs : SV} {n0 n1 n2 n : Nat} {mi : Buf Int} {m : Buf α} {F : List Nat → α} {P : Nat → Nat}
    {C : Nat → α} (hx : Data x [n0, n1, n2] m F) (hi : Lists ind n mi fun k => (P k : Int)) (hc : Lists cs n m C) (ha : cs.Apart x)
    (hP : ∀ k, k < n → P k < n0) :
    ∃ m', scale3 x ind cs mi m = .ok m' ∧ x.Becomes (fun jx => F jx * ∏ k ∈ range n with P k = jx.headD 0, C k) m m' := by
  obtain ⟨m', e, b⟩ := scale3_run hx hi hc ha hP
  exact ⟨m', e, becomes_unc hx.2.1 b fun a _ ix _ => after_scale P C _ a ix n⟩

example : ∃ m', scale2 exX ⟨0, [2], [2]⟩ ⟨6, [2], [1]⟩ exInd exMem = .ok m' ∧
    exX.Becomes (fun jx => exF jx * ∏ k ∈ range 2 with exP k = jx.headD 0, if k = 0 then 0 else 1) exMem m' :=
  C217_scale2 ex_data ⟨rfl, rfl, holds_of (by decide)⟩ ⟨rfl, rfl, holds_of (by decide)⟩ (apart_of (by decide)) (by decide)

example : ∃ m', scale3 exX3 ⟨0, [2], [2]⟩ ⟨6, [2], [1]⟩ exInd exMem = .ok m' ∧
    exX3.Becomes (fun jx => exF jx * ∏ k ∈ range 2 with exP k = jx.headD 0, if k = 0 then 0 else 1) exMem m' :=
  C217_scale3 ex_data3 ⟨rfl, rfl, holds_of (by decide)⟩ ⟨rfl, rfl, holds_of (by decide)⟩ (apart_of (by decide)) (by decide)

/-- Lists of different lengths are refused. -/
theorem C217_lengths [Mul α] {x ind cs : SV} {k n : Nat} (hi : ind.dims = [k]) (hc : cs.dims = [n]) (hn : k ≠ n) (mi : Buf Int)
    (m : Buf α) : scale2 x ind cs mi m = .throw ∧ scale3 x ind cs mi m = .throw := by
  constructor <;> simp [scale2, scale3, hi, hc, Res.get, Res.assrt, hn] <;> rfl

example : scale2 exX ⟨0, [3], [1]⟩ ⟨6, [2], [1]⟩ exInd exMem = .throw := (C217_lengths (x := exX) rfl rfl (by decide) exInd exMem).1

/-! ### C218 rotations of a matrix -/

/-- The matrices of the rotations are applied to the rows one after the other. -/
theorem C218_rotations [CommRing α] {x ind cs : SV} {n0 n1 n : Nat} {mi : Buf Int} {m : Buf α} {F : List Nat → α}
    {P Q : Nat → Nat} {C S : Nat → α} (hx : Data x [n0, n1] m F) (hi : Pairs ind n mi (fun k => (P k : Int)) (fun k => (Q k : Int)))
    (hc : Pairs cs n m C S) (ha : cs.Apart x) (hP : ∀ k, k < n → P k < n0 ∧ Q k < n0 ∧ P k ≠ Q k) :
    ∃ m', givens2 x ind cs mi m = .ok m' ∧ x.Becomes (applied n0 (fun k => giv (P k) (Q k) (C k) (S k)) F n) m m' := by
  obtain ⟨m', e, b⟩ := givens2_run hx hi hc ha fun k hk => ⟨(hP k hk).1, (hP k hk).2.1⟩
  refine ⟨m', e, becomes_unc hx.2.1 b fun a h ix _ => ?_⟩
  exact after_applied (M := fun k => giv (P k) (Q k) (C k) (S k))
    (fun k hk col a h => giv_col (hP k hk).1 (hP k hk).2.1 (hP k hk).2.2 (C k) (S k) col h) ix n le_rfl a h

example : ∃ m', givens2 exX ⟨0, [2, 2], [2, 1]⟩ ⟨6, [2, 2], [2, 1]⟩ exInd exMem = .ok m' ∧
    exX.Becomes (applied 3 (fun k => giv (exP k) (exQ k) (exC k) (exS k)) exF 2) exMem m' :=
  C218_rotations ex_data ex_ind ex_cs (apart_of (by decide)) ex_in

/-- The entry `(1,0)` of the result is the old entry `(0,0)` with the sign changed. -/
example : applied 3 (fun k => giv (exP k) (exQ k) (exC k) (exS k)) exF 2 [1, 0] = -1 := by decide

/-- Lists of different lengths, and lists that are not of pairs, are refused. -/
theorem C218_lengths [CommRing α] {x ind cs : SV} {k k1 n c1 : Nat} (hi : ind.dims = [k, k1]) (hc : cs.dims = [n, c1])
    (hn : k ≠ n ∨ k1 ≠ 2 ∨ c1 ≠ 2) (mi : Buf Int) (m : Buf α) :
    givens2 x ind cs mi m = .throw ∧ givens3 x ind cs mi m = .throw := by
  unfold givens2 givens3
  by_cases h1 : k = n
  · by_cases h2 : k1 = 2
    · have h3 : c1 ≠ 2 := by
        rcases hn with h | h | h
        · exact absurd h1 h
        · exact absurd h2 h
        · exact h
      constructor <;> simp [hi, hc, Res.get, Res.assrt, h1, h2, h3] <;> rfl
    · constructor <;> simp [hi, hc, Res.get, Res.assrt, h1, h2] <;> rfl
  · constructor <;> simp [hi, hc, Res.get, Res.assrt, h1] <;> rfl

example : givens2 exX ⟨0, [2, 3], [2, 1]⟩ ⟨6, [2, 2], [2, 1]⟩ exInd exMem = .throw :=
  (C218_lengths (x := exX) rfl rfl (by decide) exInd exMem).1

/-! ### C219 inner products -/

/-- With `C k ^ 2 + S k ^ 2 = 1` the inner products of the columns stay what they are. -/
theorem C219_matrix [CommRing α] {x ind cs : SV} {n0 n1 n : Nat} {mi : Buf Int} {m : Buf α} {F : List Nat → α}
    {P Q : Nat → Nat} {C S : Nat → α} (hx : Data x [n0, n1] m F) (hi : Pairs ind n mi (fun k => (P k : Int)) (fun k => (Q k : Int)))
    (hc : Pairs cs n m C S) (ha : cs.Apart x) (hP : ∀ k, k < n → P k < n0 ∧ Q k < n0 ∧ P k ≠ Q k)
    (h1 : ∀ k, k < n → C k * C k + S k * S k = 1) :
    ∃ m' G, givens2 x ind cs mi m = .ok m' ∧ x.Becomes G m m' ∧
      ∀ ix jx, ∑ a ∈ range n0, G (a :: ix) * G (a :: jx) = ∑ a ∈ range n0, F (a :: ix) * F (a :: jx) := by
  obtain ⟨m', e, b⟩ := givens2_run hx hi hc ha fun k hk => ⟨(hP k hk).1, (hP k hk).2.1⟩
  refine ⟨m', _, e, b, fun ix jx => ?_⟩
  refine after_inner (α := α) (n := n) (fun k hk col col' => ?_) _ ix jx n le_rfl
  refine pair_inner (hP k hk).1 (hP k hk).2.1 (hP k hk).2.2 _ _ (fun a b a' b' => ?_) col col'
  linear_combination (a * a' + b * b') * h1 k hk

theorem C219_three [CommRing α] {x ind cs : SV} {n0 n1 n2 n : Nat} {mi : Buf Int} {m : Buf α} {F : List Nat → α}
    {P Q : Nat → Nat} {C S : Nat → α} (hx : Data x [n0, n1, n2] m F)
    (hi : Pairs ind n mi (fun k => (P k : Int)) (fun k => (Q k : Int)))
    (hc : Pairs cs n m C S) (ha : cs.Apart x) (hP : ∀ k, k < n → P k < n0 ∧ Q k < n0 ∧ P k ≠ Q k)
    (h1 : ∀ k, k < n → C k * C k + S k * S k = 1) :
    ∃ m' G, givens3 x ind cs mi m = .ok m' ∧ x.Becomes G m m' ∧
      ∀ ix jx, ∑ a ∈ range n0, G (a :: ix) * G (a :: jx) = ∑ a ∈ range n0, F (a :: ix) * F (a :: jx) := by
  obtain ⟨m', e, b⟩ := givens3_run hx hi hc ha fun k hk => ⟨(hP k hk).1, (hP k hk).2.1⟩
  refine ⟨m', _, e, b, fun ix jx => ?_⟩
  refine after_inner (α := α) (n := n) (fun k hk col col' => ?_) _ ix jx n le_rfl
  refine pair_inner (hP k hk).1 (hP k hk).2.1 (hP k hk).2.2 _ _ (fun a b a' b' => ?_) col col'
  linear_combination (a * a' + b * b') * h1 k hk

example : ∃ m' G, givens2 exX ⟨0, [2, 2], [2, 1]⟩ ⟨6, [2, 2], [2, 1]⟩ exInd exMem = .ok m' ∧ exX.Becomes G exMem m' ∧
    ∀ ix jx, ∑ a ∈ range 3, G (a :: ix) * G (a :: jx) = ∑ a ∈ range 3, exF (a :: ix) * exF (a :: jx) :=
  C219_matrix ex_data ex_ind ex_cs (apart_of (by decide)) ex_in ex_unit

example : ∃ m' G, givens3 exX3 ⟨0, [2, 2], [2, 1]⟩ ⟨6, [2, 2], [2, 1]⟩ exInd exMem = .ok m' ∧ exX3.Becomes G exMem m' ∧
    ∀ ix jx, ∑ a ∈ range 3, G (a :: ix) * G (a :: jx) = ∑ a ∈ range 3, exF (a :: ix) * exF (a :: jx) :=
  C219_three ex_data3 ex_ind ex_cs (apart_of (by decide)) ex_in ex_unit

/-! ### C220 undoing -/

/-- The rotations in the opposite order with the signs of the second coefficients changed restore the memory. -/
theorem C220_matrix [CommRing α] {x ind cs ind' cs' : SV} {n0 n1 n : Nat} {mi mi' : Buf Int} {m : Buf α} {F : List Nat → α}
    {P Q : Nat → Nat} {C S : Nat → α} (hx : Data x [n0, n1] m F) (hi : Pairs ind n mi (fun k => (P k : Int)) (fun k => (Q k : Int)))
    (hc : Pairs cs n m C S) (ha : cs.Apart x)
    (hi' : Pairs ind' n mi' (fun k => (P (n - 1 - k) : Int)) (fun k => (Q (n - 1 - k) : Int)))
    (hc' : Pairs cs' n m (fun k => C (n - 1 - k)) (fun k => -S (n - 1 - k))) (ha' : cs'.Apart x)
    (hP : ∀ k, k < n → P k < n0 ∧ Q k < n0 ∧ P k ≠ Q k) (h1 : ∀ k, k < n → C k * C k + S k * S k = 1) :
    ∃ m', givens2 x ind cs mi m = .ok m' ∧ givens2 x ind' cs' mi' m' = .ok m := by
  obtain ⟨m1, e1, b1⟩ := givens2_run hx hi hc ha fun k hk => ⟨(hP k hk).1, (hP k hk).2.1⟩
  obtain ⟨m2, e2, b2⟩ := givens2_run (P := fun k => P (n - 1 - k)) (Q := fun k => Q (n - 1 - k)) ⟨hx.1, hx.2.1, hx.2.2.1, b1.1⟩ hi'
    (hc'.keep ha' b1) ha' fun k hk => ⟨(hP _ (by omega)).1, (hP _ (by omega)).2.1⟩
  refine ⟨m1, e1, ?_⟩
  rw [e2]
  congr 1
  refine same_memory hx.2.2.2 (becomes_unc hx.2.1 (becomes_trans b1 b2) fun a _ ix _ => ?_)
  have := after_undo (n := n) (op := fun k => pairCol (P k) (Q k) (fun t0 t1 => C k * t0 + S k * t1) (fun t0 t1 => C k * t1 - S k * t0))
    (op' := fun k => pairCol (P (n - 1 - k)) (Q (n - 1 - k)) (fun t0 t1 => C (n - 1 - k) * t0 + -S (n - 1 - k) * t1)
      (fun t0 t1 => C (n - 1 - k) * t1 - -S (n - 1 - k) * t0)) (fun k hk col => ?_) (fun a ix => F (a :: ix)) n le_rfl
  · rw [Nat.sub_self] at this
    exact congrFun (congrFun this a) ix
  · rw [show n - 1 - (n - 1 - k) = k by omega]
    refine pair_undo (hP k hk).2.2 (fun a b => ?_) (fun a b => ?_) col
    · linear_combination a * h1 k hk
    · linear_combination b * h1 k hk

/-- With three axes the same operations in the opposite order restore the memory. -/
theorem C220_three [CommRing α] {x ind cs ind' cs' : SV} {n0 n1 n2 n : Nat} {mi mi' : Buf Int} {m : Buf α} {F : List Nat → α}
    {P Q : Nat → Nat} {C S : Nat → α} (hx : Data x [n0, n1, n2] m F)
    (hi : Pairs ind n mi (fun k => (P k : Int)) (fun k => (Q k : Int)))
    (hc : Pairs cs n m C S) (ha : cs.Apart x)
    (hi' : Pairs ind' n mi' (fun k => (P (n - 1 - k) : Int)) (fun k => (Q (n - 1 - k) : Int)))
    (hc' : Pairs cs' n m (fun k => C (n - 1 - k)) (fun k => S (n - 1 - k))) (ha' : cs'.Apart x)
    (hP : ∀ k, k < n → P k < n0 ∧ Q k < n0 ∧ P k ≠ Q k) (h1 : ∀ k, k < n → C k * C k + S k * S k = 1) :
    ∃ m', givens3 x ind cs mi m = .ok m' ∧ givens3 x ind' cs' mi' m' = .ok m := by
  obtain ⟨m1, e1, b1⟩ := givens3_run hx hi hc ha fun k hk => ⟨(hP k hk).1, (hP k hk).2.1⟩
  obtain ⟨m2, e2, b2⟩ := givens3_run (P := fun k => P (n - 1 - k)) (Q := fun k => Q (n - 1 - k)) ⟨hx.1, hx.2.1, hx.2.2.1, b1.1⟩ hi'
    (hc'.keep ha' b1) ha' fun k hk => ⟨(hP _ (by omega)).1, (hP _ (by omega)).2.1⟩
  refine ⟨m1, e1, ?_⟩
  rw [e2]
  congr 1
  refine same_memory hx.2.2.2 (becomes_unc hx.2.1 (becomes_trans b1 b2) fun a _ ix _ => ?_)
  have := after_undo (n := n) (op := fun k => pairCol (P k) (Q k) (fun t0 t1 => C k * t0 + S k * t1)
      (fun t0 t1 => -(C k * t1 - S k * t0)))
    (op' := fun k => pairCol (P (n - 1 - k)) (Q (n - 1 - k)) (fun t0 t1 => C (n - 1 - k) * t0 + S (n - 1 - k) * t1)
      (fun t0 t1 => -(C (n - 1 - k) * t1 - S (n - 1 - k) * t0))) (fun k hk col => ?_) (fun a ix => F (a :: ix)) n le_rfl
  · rw [Nat.sub_self] at this
    exact congrFun (congrFun this a) ix
  · rw [show n - 1 - (n - 1 - k) = k by omega]
    refine pair_undo (hP k hk).2.2 (fun a b => ?_) (fun a b => ?_) col
    · linear_combination a * h1 k hk
    · linear_combination b * h1 k hk

example : ∃ m', givens2 exX ⟨0, [2, 2], [2, 1]⟩ ⟨6, [2, 2], [2, 1]⟩ exInd exMem = .ok m' ∧
    givens2 exX ⟨4, [2, 2], [2, 1]⟩ ⟨10, [2, 2], [2, 1]⟩ exInd m' = .ok exMem :=
  C220_matrix ex_data ex_ind ex_cs (apart_of (by decide)) ⟨rfl, rfl, holds_of (by decide)⟩ ⟨rfl, rfl, holds_of (by decide)⟩
    (apart_of (by decide)) ex_in ex_unit

example : ∃ m', givens3 exX3 ⟨0, [2, 2], [2, 1]⟩ ⟨6, [2, 2], [2, 1]⟩ exInd exMem = .ok m' ∧
    givens3 exX3 ⟨2, [2, 2], [-2, 1]⟩ ⟨8, [2, 2], [-2, 1]⟩ exInd m' = .ok exMem :=
  C220_three ex_data3 ex_ind ex_cs (apart_of (by decide)) ⟨rfl, rfl, holds_of (by decide)⟩ ⟨rfl, rfl, holds_of (by decide)⟩
    (apart_of (by decide)) ex_in ex_unit

/-! ### C221 the overload for three axes -/

/-- With three axes the matrices applied are those of reflections. -/
theorem C221_reflections_partial [CommRing α] {x ind cs : SV} {n0 n1 n2 n : Nat} {mi : Buf Int} {m : Buf α} {F : List Nat → α}
    {P Q : Nat → Nat} {C S : Nat → α} (hx : Data x [n0, n1, n2] m F)
    (hi : Pairs ind n mi (fun k => (P k : Int)) (fun k => (Q k : Int)))
    (hc : Pairs cs n m C S) (ha : cs.Apart x) (hP : ∀ k, k < n → P k < n0 ∧ Q k < n0 ∧ P k ≠ Q k) :
    ∃ m', givens3 x ind cs mi m = .ok m' ∧ x.Becomes (applied n0 (fun k => mirror (P k) (Q k) (C k) (S k)) F n) m m' := by
  obtain ⟨m', e, b⟩ := givens3_run hx hi hc ha fun k hk => ⟨(hP k hk).1, (hP k hk).2.1⟩
  refine ⟨m', e, becomes_unc hx.2.1 b fun a h ix _ => ?_⟩
  exact after_applied (M := fun k => mirror (P k) (Q k) (C k) (S k))
    (fun k hk col a h => mirror_col (hP k hk).1 (hP k hk).2.1 (hP k hk).2.2 (C k) (S k) col h) ix n le_rfl a h

example : ∃ m', givens3 exX3 ⟨0, [2, 2], [2, 1]⟩ ⟨6, [2, 2], [2, 1]⟩ exInd exMem = .ok m' ∧
    exX3.Becomes (applied 3 (fun k => mirror (exP k) (exQ k) (exC k) (exS k)) exF 2) exMem m' :=
  C221_reflections_partial ex_data3 ex_ind ex_cs (apart_of (by decide)) ex_in

/-- The contents of the first `n` cells after a run. -/
def firstCells (n : Nat) : Res (Buf Int) → Option (List (Option Int))
  | .ok m => some ((List.range n).map m)
  | _ => none

/-- On the same memory, with a third axis of size one, the two overloads leave different numbers. -/
theorem C221_overloads_fails : ¬ ∀ (o : Int) (n0 n1 : Nat) (s0 s1 : Int) (ind cs : SV) (mi m : Buf Int),
    firstCells 2 (givens2 ⟨o, [n0, n1], [s0, s1]⟩ ind cs mi m) = firstCells 2 (givens3 ⟨o, [n0, n1, 1], [s0, s1, 1]⟩ ind cs mi m) :=
  fun h => absurd (h 0 2 1 1 1 ⟨0, [1, 2], [2, 1]⟩ ⟨2, [1, 2], [2, 1]⟩ (Buf.ofList [0, 1]) (Buf.ofList [1, 2, 0, 1])) (by decide)

/-- The two results: `2, -1` and `2, 1`. -/
example : firstCells 2 (givens2 ⟨0, [2, 1], [1, 1]⟩ ⟨0, [1, 2], [2, 1]⟩ ⟨2, [1, 2], [2, 1]⟩ (Buf.ofList [0, 1]) (Buf.ofList [1, 2, 0, 1])) =
      some [some 2, some (-1)] ∧
    firstCells 2 (givens3 ⟨0, [2, 1, 1], [1, 1, 1]⟩ ⟨0, [1, 2], [2, 1]⟩ ⟨2, [1, 2], [2, 1]⟩ (Buf.ofList [0, 1])
      (Buf.ofList [1, 2, 0, 1])) = some [some 2, some 1] := by decide

/-! ### C222 a slice paired with itself -/

theorem same_col [CommRing α] (p : Nat) (c s : α) :
    pairCol p p (fun t0 t1 => c * t0 + s * t1) (fun t0 t1 => c * t1 - s * t0) = scaleCol p (c - s) := by
  funext col a
  unfold pairCol scaleCol
  by_cases e : a = p
  · subst e; simp only [if_true]; ring
  · simp only [if_neg e]

/-- Every operation of a slice with itself multiplies the slice by the difference of the coefficients. -/
theorem C222_same_partial [CommRing α] {x ind cs : SV} {n0 n1 n : Nat} {mi : Buf Int} {m : Buf α} {F : List Nat → α}
    {P : Nat → Nat} {C S : Nat → α} (hx : Data x [n0, n1] m F) (hi : Pairs ind n mi (fun k => (P k : Int)) (fun k => (P k : Int)))
    (hc : Pairs cs n m C S) (ha : cs.Apart x) (hP : ∀ k, k < n → P k < n0) :
    ∃ m', givens2 x ind cs mi m = .ok m' ∧ x.Becomes (fun jx => F jx * ∏ k ∈ range n with P k = jx.headD 0, (C k - S k)) m m' := by
  obtain ⟨m', e, b⟩ := givens2_run hx hi hc ha fun k hk => ⟨hP k hk, hP k hk⟩
  refine ⟨m', e, becomes_unc hx.2.1 b fun a _ ix _ => ?_⟩
  simp only [same_col]
  exact after_scale P (fun k => C k - S k) _ a ix n

example : ∃ m', givens2 exX ⟨0, [2, 2], [2, 0]⟩ ⟨6, [2, 2], [2, 1]⟩ exInd exMem = .ok m' ∧
    exX.Becomes (fun jx => exF jx * ∏ k ∈ range 2 with exP k = jx.headD 0, (exC k - exS k)) exMem m' :=
  C222_same_partial ex_data ⟨rfl, rfl, holds_of (by decide)⟩ ex_cs (apart_of (by decide)) (by decide)

/-- Inner products are not kept when a slice is paired with itself: `1` becomes `3/5 - 4/5`. -/
theorem C222_inner_fails : ¬ ∀ (x ind cs : SV) (n0 n1 n : Nat) (mi : Buf Int) (m : Buf ℚ) (F : List Nat → ℚ) (P Q : Nat → Nat)
    (C S : Nat → ℚ), Data x [n0, n1] m F → Pairs ind n mi (fun k => (P k : Int)) (fun k => (Q k : Int)) → Pairs cs n m C S →
    cs.Apart x → (∀ k, k < n → P k < n0 ∧ Q k < n0) → (∀ k, k < n → C k * C k + S k * S k = 1) →
    ∃ m' G, givens2 x ind cs mi m = .ok m' ∧ x.Becomes G m m' ∧
      ∀ ix jx, InRange ix [n1] → InRange jx [n1] → ∑ a ∈ range n0, G (a :: ix) * G (a :: jx) = ∑ a ∈ range n0, F (a :: ix) * F (a :: jx) := by
  intro h
  have hd : Data (⟨0, [1, 1], [1, 1]⟩ : SV) [1, 1] (Buf.ofList [(1 : ℚ), 3 / 5, 4 / 5]) (fun _ => 1) :=
    ⟨rfl, rfl, inj_of (by decide), holds_of (by decide +kernel)⟩
  have hi : Pairs ⟨0, [1, 2], [0, 0]⟩ 1 (Buf.ofList [(0 : Int)]) (fun _ => ((0 : Nat) : Int)) (fun _ => ((0 : Nat) : Int)) :=
    ⟨rfl, rfl, holds_of (by decide)⟩
  have hc : Pairs ⟨1, [1, 2], [2, 1]⟩ 1 (Buf.ofList [(1 : ℚ), 3 / 5, 4 / 5]) (fun _ => 3 / 5) (fun _ => 4 / 5) :=
    ⟨rfl, rfl, holds_of (by decide +kernel)⟩
  have ha : (⟨1, [1, 2], [2, 1]⟩ : SV).Apart ⟨0, [1, 1], [1, 1]⟩ := apart_of (by decide)
  obtain ⟨m', G, e, b, hs⟩ := h _ _ _ 1 1 1 _ _ _ (fun _ => 0) (fun _ => 0) _ _ hd hi hc ha (by intro k hk; omega) (by intro k _; norm_num)
  obtain ⟨m2, e2, b2⟩ := C222_same_partial hd (P := fun _ => 0) hi hc ha (by intro k hk; omega)
  rw [e] at e2
  cases e2
  have r : InRange [0, 0] (⟨0, [1, 1], [1, 1]⟩ : SV).dims := mem_allIndices.1 (by decide)
  have g := (b.1 [0, 0] r).symm.trans (b2.1 [0, 0] r)
  have g' := Option.some.inj g
  have hs' := hs [0] [0] (mem_allIndices.1 (by decide)) (mem_allIndices.1 (by decide))
  simp [g'] at hs'
  norm_num at hs'

/-! ### C223 indices out of range -/

/-- With all indices in range nothing outside `x` changes. -/
theorem C223_inside_partial [CommRing α] {x ind cs : SV} {n0 n1 n : Nat} {mi : Buf Int} {m : Buf α} {F : List Nat → α}
    {P Q : Nat → Nat} {C S : Nat → α} (hx : Data x [n0, n1] m F) (hi : Pairs ind n mi (fun k => (P k : Int)) (fun k => (Q k : Int)))
    (hc : Pairs cs n m C S) (ha : cs.Apart x) (hP : ∀ k, k < n → P k < n0 ∧ Q k < n0) :
    ∃ m', givens2 x ind cs mi m = .ok m' ∧ ∀ c : Nat, (∀ ix, InRange ix x.dims → x.cell ix ≠ c) → m' c = m c := by
  obtain ⟨m', e, b⟩ := givens2_run hx hi hc ha hP
  exact ⟨m', e, b.2⟩

example : ∃ m', givens2 exX ⟨0, [2, 2], [2, 1]⟩ ⟨6, [2, 2], [2, 1]⟩ exInd exMem = .ok m' ∧
    ∀ c : Nat, (∀ ix, InRange ix exX.dims → exX.cell ix ≠ c) → m' c = exMem c :=
  C223_inside_partial ex_data ex_ind ex_cs (apart_of (by decide)) fun k hk => ⟨(ex_in k hk).1, (ex_in k hk).2.1⟩

/-- An index equal to the number of slices is not refused: the cell behind the view is changed. -/
theorem C223_outside_fails : ¬ ∀ (x ind cs : SV) (mi m : Buf Int) (F : List Nat → Int) (n0 n1 : Nat), Data x [n0, n1] m F →
    ∀ m', scale2 x ind cs mi m = .ok m' → ∀ c : Nat, (∀ ix, InRange ix x.dims → x.cell ix ≠ c) → m' c = m c := by
  intro h
  have hd : Data (⟨0, [1, 1], [1, 1]⟩ : SV) [1, 1] (Buf.ofList [(7 : Int), 5, 3]) (fun _ => 7) :=
    ⟨rfl, rfl, inj_of (by decide), holds_of (by decide)⟩
  have hr : firstCells 3 (scale2 (⟨0, [1, 1], [1, 1]⟩ : SV) ⟨0, [1], [1]⟩ ⟨2, [1], [1]⟩ (Buf.ofList [(1 : Int)]) (Buf.ofList [(7 : Int), 5, 3])) =
    some [some 7, some 15, some 3] := by decide
  match e : scale2 (⟨0, [1, 1], [1, 1]⟩ : SV) ⟨0, [1], [1]⟩ ⟨2, [1], [1]⟩ (Buf.ofList [(1 : Int)]) (Buf.ofList [(7 : Int), 5, 3]) with
  | .ok m' =>
    have h1 := h _ _ _ _ _ _ 1 1 hd m' e 1 (fun ix hix =>
      (show ∀ ix ∈ allIndices [1, 1], (⟨0, [1, 1], [1, 1]⟩ : SV).cell ix ≠ ((1 : Nat) : Int) by decide) ix (mem_allIndices.2 hix))
    rw [e] at hr
    simp only [firstCells, Option.some.injEq] at hr
    have h2 : m' 1 = some 15 := by
      have := congrArg (fun l => l[1]?) hr
      simpa using this
    rw [h2] at h1
    revert h1
    decide
  | .throw => rw [e] at hr; cases hr
  | .ub => rw [e] at hr; cases hr

end SliceOps
end Cnine
