import Verif.Lemmas.EinsumFn
import Verif.Spec.EinsumFn
import Verif.Lemmas.SumOver
import Mathlib.Algebra.Star.BigOperators
import Mathlib.NumberTheory.Zsqrtd.Basic

/-! # C224–C231: the einsum functors of the float views -/

namespace Cnine
namespace EinsumFn

open Einsum (positions comb Fits sumOver common onlyIn)

variable {α : Type}

theorem plainStar_eq (b : Bool) (s : List Char) : plainStar b s = starred b '*' s := rfl

theorem Names.x {s : List Char} (h : Names s) : 'x' ∉ s := fun m => (h 'x' m).2.2.2 rfl
theorem Names.star {s : List Char} (h : Names s) : '*' ∉ s := fun m => (h '*' m).2.2.1 rfl
theorem Names.comma {s : List Char} (h : Names s) : ',' ∉ s := fun m => (h ',' m).1 rfl
theorem Names.gt {s : List Char} (h : Names s) : '>' ∉ s := fun m => (h '>' m).2.1 rfl

/-! ### C224 the groups of letters -/

/-- The real functor: letters of the result that some operand has, letters of the first operand that the result has not, letters that
only the result has, each with all its positions. -/
theorem C224_real {xs ys rs : List Char} (hx : Names xs) (hy : Names ys) (hr : Names rs) :
    realForm (written xs ys rs) =
      { direct := (common rs (xs ++ ys)).map fun c => (positions c rs, positions c xs, positions c ys)
        sums := (onlyIn xs rs).map fun c => (positions c xs, positions c ys)
        bcasts := (onlyIn rs (xs ++ ys)).map (positions · rs) } := by
  unfold realForm written
  rw [split3_eq hx.comma hx.gt hy.gt]
  exact analyse_eq hx.x hr.x

example : realForm "ijk,kl->ilb".toList =
    { direct := [([0], [0], []), ([1], [], [1])], sums := [([1], []), ([2], [0])], bcasts := [[2]] } :=
  C224_real (xs := "ijk".toList) (ys := "kl".toList) (rs := "ilb".toList) (by decide) (by decide) (by decide)

/-- The complex functor: the same groups; an operand is conjugated when exactly one of it and the result carries a star. -/
theorem C224_complex {xs ys rs : List Char} (hx : Names xs) (hy : Names ys) (hr : Names rs) (a b c : Bool)
    (nx : plainStar a xs ≠ []) (ny : plainStar b ys ≠ []) (nr : plainStar c rs ≠ []) :
    complexForm (written (plainStar a xs) (plainStar b ys) (plainStar c rs)) = .ok (some
      { direct := (common rs (xs ++ ys)).map fun c => (positions c rs, positions c xs, positions c ys)
        sums := (onlyIn xs rs).map fun c => (positions c xs, positions c ys)
        bcasts := (onlyIn rs (xs ++ ys)).map (positions · rs)
        xconj := a != c, yconj := b != c }) := by
  unfold complexForm written
  rw [split3_eq (by cases a <;> simp [plainStar, hx.comma]) (by cases a <;> simp [plainStar, hx.gt])
    (by cases b <;> simp [plainStar, hy.gt])]
  dsimp only
  rw [plainStar_eq, plainStar_eq, plainStar_eq, isConj_starred hr.star c nr, Res.ok_bind, isConj_starred hx.star a nx, Res.ok_bind,
    isConj_starred hy.star b ny, Res.ok_bind]
  dsimp only
  rw [analyse_starred hx.x hr.x]

example : complexForm "ij*,jk->ki*".toList = .ok (some
    { direct := [([0], [], [1]), ([1], [0], [])], sums := [([1], [0])], bcasts := [], xconj := false, yconj := true }) :=
  C224_complex (xs := "ij".toList) (ys := "jk".toList) (rs := "ki".toList) (by decide) (by decide) (by decide) true false true
    (by decide) (by decide) (by decide)

/-! ### C225 complex einsum -/

theorem letters_append {κ : Type} [DecidableEq κ] (a b : List κ) :
    Einsum.letters (a ++ b) = Einsum.letters a ++ (Einsum.letters b).filter fun c => decide (c ∉ a) := by
  induction a with
  | nil => simp [Einsum.letters]
  | cons c a ih =>
    simp only [List.cons_append, Einsum.letters, ih, List.filter_append, List.filter_filter]
    congr 2
    apply List.filter_congr
    intro d _
    by_cases h : d = c <;> by_cases h' : d ∈ a <;> simp [h, h']

theorem summed_eq {xs ys rs : List Char} (h : onlyIn ys (xs ++ rs) = []) : onlyIn (xs ++ ys) rs = onlyIn xs rs := by
  unfold onlyIn
  rw [letters_append, List.filter_append, List.filter_filter]
  have : (Einsum.letters ys).filter (fun c => decide (c ∉ rs) && decide (c ∉ xs)) = [] := by
    rw [← h]
    unfold onlyIn
    apply List.filter_congr
    intro c _
    by_cases h1 : c ∈ xs <;> by_cases h2 : c ∈ rs <;> simp [h1, h2]
  rw [this, List.append_nil]

theorem sumOver_star [NonUnitalNonAssocSemiring α] [StarRing α] (len : Char → Nat) (f : (Char → Nat) → α) (S : List Char)
    (ρ : Char → Nat) : star (sumOver len f S ρ) = sumOver len (fun σ => star (f σ)) S ρ := by
  induction S generalizing ρ with
  | nil => rfl
  | cons c S ih =>
    simp only [sumOver, ← ih]
    rw [← starAddEquiv_apply, map_list_sum, List.map_map]
    rfl

/-- Conjugation as the star at the end of a string asks for it. -/
def conjIf [Star α] (b : Bool) (a : α) : α := if b then star a else a

theorem conj_prod [CommSemiring α] [StarRing α] (a b c : Bool) (u v : α) :
    flip star (a != c) u * flip star (b != c) v = conjIf c (conjIf a u * conjIf b v) := by
  cases a <;> cases b <;> cases c <;> simp [flip, conjIf]

theorem conj_sum [CommSemiring α] [StarRing α] (c : Bool) (len : Char → Nat) (f : (Char → Nat) → α) (S : List Char) (ρ : Char → Nat) :
    sumOver len (fun σ => conjIf c (f σ)) S ρ = conjIf c (sumOver len f S ρ) := by
  cases c with
  | false => rfl
  | true => exact (sumOver_star len f S ρ).symm

/-- The second operand as the functors see it: letters that neither the first operand nor the result has are taken to be zero. -/
def seen (xs rs : List Char) (σ : Char → Nat) : Char → Nat := fun c => if c ∈ xs ++ rs then σ c else 0

theorem seen_eq {xs ys rs : List Char} (h : onlyIn ys (xs ++ rs) = []) (σ : Char → Nat) : ys.map (seen xs rs σ) = ys.map σ := by
  apply List.map_congr_left
  intro c hc
  by_cases hm : c ∈ xs ++ rs
  · exact if_pos hm
  · exact absurd (Einsum.mem_onlyIn.2 ⟨hc, hm⟩) (by rw [h]; simp)

theorem positive {xs ys rs : List Char} {len : Char → Nat} (h : onlyIn ys (xs ++ rs) = []) : ∀ c ∈ onlyIn ys (xs ++ rs), 0 < len c := by
  rw [h]; intro c hc; simp at hc

theorem seen_map {xs ys rs : List Char} (σ : Char → Nat) :
    (ys.map fun c => if c ∈ common rs (xs ++ ys) ++ onlyIn xs rs then σ c else 0) = ys.map (seen xs rs σ) := by
  apply List.map_congr_left
  intro c hc
  unfold seen
  simp only [known_second hc]

/-- What the complex functor computes, with whatever conjugations. -/
theorem complex_core [CommSemiring α] [StarRing α] {xs ys rs : List Char} (hx : Names xs) (hy : Names ys) (hr : Names rs) (a b c : Bool)
    (nx : plainStar a xs ≠ []) (ny : plainStar b ys ≠ []) (nr : plainStar c rs ≠ [])
    (hT : (common rs (xs ++ ys)).length ≤ 4) (hS : (onlyIn xs rs).length ≤ 3)
    (hB : (onlyIn rs (xs ++ ys)).length ≤ 3) (len : Char → Nat) (hY0 : ∀ c ∈ onlyIn ys (xs ++ rs), 0 < len c)
    (r x y : View) (hrd : r.dims = rs.map len) (hxd : x.dims = xs.map len) (hyd : y.dims = ys.map len)
    (hrw : r.WF) (hxw : x.WF) (hyw : y.WF) (hdist : r.Distinct) (hax : r.Apart x) (hay : r.Apart y)
    (m : Buf α) (R X Y : List Nat → α) (hR : ∀ ix, InRange ix r.dims → r.val m ix = some (R ix))
    (hX : ∀ ix, InRange ix x.dims → x.val m ix = some (X ix)) (hY : ∀ ix, InRange ix y.dims → y.val m ix = some (Y ix)) :
    ∃ m', complexEinsum star (written (plainStar a xs) (plainStar b ys) (plainStar c rs)) r x y m = .ok m' ∧
      (∀ ρ, InRange (rs.map ρ) r.dims → r.val m' (rs.map ρ) = some (R (rs.map ρ) +
        sumOver len (fun σ => flip star (a != c) (X (xs.map σ)) *
          flip star (if (onlyIn xs rs).length = 3 && (a != c) then ! (b != c) else (b != c)) (Y (ys.map (seen xs rs σ)))) (onlyIn xs rs) ρ)) ∧
      ∀ q, (∀ ρ, InRange (rs.map ρ) r.dims → q ≠ r.cell (rs.map ρ)) → m' q = m q := by
  have hrl : rs.length = r.strides.length := by rw [hrw, hrd]; simp
  have hxl : xs.length = x.strides.length := by rw [hxw, hxd]; simp
  have hyl : ys.length = y.strides.length := by rw [hyw, hyd]; simp
  let f : Form := { direct := (common rs (xs ++ ys)).map fun c => (positions c rs, positions c xs, positions c ys)
                    sums := (onlyIn xs rs).map fun c => (positions c xs, positions c ys)
                    bcasts := (onlyIn rs (xs ++ ys)).map (positions · rs)
                    xconj := a != c, yconj := b != c }
  obtain ⟨m', e, h1, h2⟩ := runFn_spec (fun u v => flip star (a != c) u *
      flip star (if (onlyIn xs rs).length = 3 && (a != c) then ! (b != c) else (b != c)) v) 4 f
    r x y rs xs ys _ (onlyIn xs rs) _ len hrd hxd hyd hrl hxl hyl hdist hax hay
    groups_result.1 groups_operand.1 groups_result.2 groups_operand.2
    (fun d hd hn => hY0 d (Einsum.mem_onlyIn.2 ⟨hd, fun h => hn ((known_second hd).2 h)⟩)) hT hB rfl rfl
    (complexSloops star f r x y)
    (fun t m => complexSloops_eq star f r x y (onlyIn xs rs) xs ys (common rs (xs ++ ys)) len rfl (by omega)
        (right_own _ xs ys len x y hxd hxl hyl fun c hc => (Einsum.mem_onlyIn.1 hc).1)
        (dot ((common rs (xs ++ ys)).map (comb · rs r.strides)) t) t m)
    m R X Y hR hX hY
  refine ⟨m', ?_, ?_, h2⟩
  · unfold complexEinsum
    rw [C224_complex hx hy hr a b c nx ny nr, Res.ok_bind]
    exact e
  · intro ρ hρ
    rw [h1 ρ hρ]
    simp only [seen_map]

/-- The result gains the sum of the products, with the conjugations written. -/
theorem C225_complex [CommSemiring α] [StarRing α] {xs ys rs : List Char} (hx : Names xs) (hy : Names ys) (hr : Names rs) (a b c : Bool)
    (nx : plainStar a xs ≠ []) (ny : plainStar b ys ≠ []) (nr : plainStar c rs ≠ [])
    (hT : (common rs (xs ++ ys)).length ≤ 4) (hS : (onlyIn xs rs).length ≤ 2 ∨ (onlyIn xs rs).length = 3 ∧ a = c)
    (hB : (onlyIn rs (xs ++ ys)).length ≤ 3) (hY0 : onlyIn ys (xs ++ rs) = []) (len : Char → Nat)
    (r x y : View) (hrd : r.dims = rs.map len) (hxd : x.dims = xs.map len) (hyd : y.dims = ys.map len)
    (hrw : r.WF) (hxw : x.WF) (hyw : y.WF) (hdist : r.Distinct) (hax : r.Apart x) (hay : r.Apart y)
    (m : Buf α) (R X Y : List Nat → α) (hR : ∀ ix, InRange ix r.dims → r.val m ix = some (R ix))
    (hX : ∀ ix, InRange ix x.dims → x.val m ix = some (X ix)) (hY : ∀ ix, InRange ix y.dims → y.val m ix = some (Y ix)) :
    ∃ m', complexEinsum star (written (plainStar a xs) (plainStar b ys) (plainStar c rs)) r x y m = .ok m' ∧
      (∀ ρ, InRange (rs.map ρ) r.dims → r.val m' (rs.map ρ) = some (R (rs.map ρ) +
        conjIf c (sumOver len (fun σ => conjIf a (X (xs.map σ)) * conjIf b (Y (ys.map σ))) (onlyIn (xs ++ ys) rs) ρ))) ∧
      ∀ q, (∀ ρ, InRange (rs.map ρ) r.dims → q ≠ r.cell (rs.map ρ)) → m' q = m q := by
  have hflag : ∀ yc : Bool, (if (onlyIn xs rs).length = 3 && (a != c) then ! yc else yc) = yc := by
    intro yc
    rcases hS with h | ⟨-, rfl⟩
    · have : ¬ (onlyIn xs rs).length = 3 := by omega
      simp [this]
    · simp
  obtain ⟨m', e, h1, h2⟩ := complex_core hx hy hr a b c nx ny nr hT (by omega) hB len (positive hY0) r x y hrd hxd hyd hrw hxw hyw
    hdist hax hay m R X Y hR hX hY
  refine ⟨m', e, fun ρ hρ => ?_, h2⟩
  rw [h1 ρ hρ, summed_eq hY0]
  simp only [hflag, seen_eq hY0, conj_prod, conj_sum]

/-- The entries of a view as they are in memory. -/
def entries [Zero α] (v : View) (m : Buf α) (ix : List Nat) : α := (m (v.cell ix)).getD 0

theorem entries_of [Zero α] {v : View} {m : Buf α} (h : ∀ ix ∈ allIndices v.dims, (m (v.cell ix)).isSome = true) :
    ∀ ix, InRange ix v.dims → v.val m ix = some (entries v m ix) := by
  intro ix hix
  have := h ix (mem_allIndices.2 hix)
  unfold entries View.val
  cases e : m (v.cell ix) with
  | none => rw [e] at this; simp at this
  | some a => rfl

/-- Gaussian integers. -/
abbrev Gi := Zsqrtd (-1)

/-- Two rows, two columns, the result transposed. -/
def exMem : Buf Gi := Buf.ofList [⟨0, 0⟩, ⟨0, 1⟩, ⟨1, 1⟩, ⟨2, 0⟩, ⟨0, 3⟩, ⟨1, 2⟩, ⟨5, 1⟩, ⟨1, -1⟩]

/-- "ij*,jk->ki*" with a 2×2 matrix and a column. -/
example : ∃ m', complexEinsum star "ij*,jk->ki*".toList ⟨0, [1, 2], [2, 1]⟩ ⟨2, [2, 2], [2, 1]⟩ ⟨6, [2, 1], [1, 1]⟩ exMem = .ok m' ∧
    (∀ ρ, InRange ("ki".toList.map ρ) [1, 2] → (⟨0, [1, 2], [2, 1]⟩ : View).val m' ("ki".toList.map ρ) =
      some (entries ⟨0, [1, 2], [2, 1]⟩ exMem ("ki".toList.map ρ) +
        conjIf true (sumOver (fun c => if c = 'k' then 1 else 2) (fun σ => conjIf true (entries ⟨2, [2, 2], [2, 1]⟩ exMem ("ij".toList.map σ)) *
          conjIf false (entries ⟨6, [2, 1], [1, 1]⟩ exMem ("jk".toList.map σ))) (onlyIn ("ij".toList ++ "jk".toList) "ki".toList) ρ))) ∧
    ∀ q, (∀ ρ, InRange ("ki".toList.map ρ) [1, 2] → q ≠ (⟨0, [1, 2], [2, 1]⟩ : View).cell ("ki".toList.map ρ)) → m' q = exMem q :=
  C225_complex (xs := "ij".toList) (ys := "jk".toList) (rs := "ki".toList) (by decide) (by decide) (by decide) true false true
    (by decide) (by decide) (by decide) (by decide) (by decide) (by decide) (by decide) (fun c => if c = 'k' then 1 else 2)
    ⟨0, [1, 2], [2, 1]⟩ ⟨2, [2, 2], [2, 1]⟩ ⟨6, [2, 1], [1, 1]⟩ (by decide) (by decide) (by decide) rfl rfl rfl
    (by decide) (by decide) (by decide) exMem _ _ _ (entries_of (by decide)) (entries_of (by decide)) (entries_of (by decide))

/-! ### C226 real einsum without summation -/

/-- What the real functor computes when the numbers taken from `r` for the summed letters are those of `x` and `y`. -/
theorem real_core [NonUnitalNonAssocSemiring α] {xs ys rs : List Char} (hx : Names xs) (hy : Names ys) (hr : Names rs)
    (hT : (common rs (xs ++ ys)).length ≤ 3) (hS : (onlyIn xs rs).length ≤ 3)
    (hB : (onlyIn rs (xs ++ ys)).length ≤ 3) (len : Char → Nat) (hY0 : ∀ c ∈ onlyIn ys (xs ++ rs), 0 < len c)
    (r x y : View) (hrd : r.dims = rs.map len) (hxd : x.dims = xs.map len) (hyd : y.dims = ys.map len)
    (hrw : r.WF) (hxw : x.WF) (hyw : y.WF) (hdist : r.Distinct) (hax : r.Apart x) (hay : r.Apart y)
    (hg : Right (onlyIn xs rs) xs ys len r r r x y)
    (m : Buf α) (R X Y : List Nat → α) (hR : ∀ ix, InRange ix r.dims → r.val m ix = some (R ix))
    (hX : ∀ ix, InRange ix x.dims → x.val m ix = some (X ix)) (hY : ∀ ix, InRange ix y.dims → y.val m ix = some (Y ix)) :
    ∃ m', realEinsum (written xs ys rs) r x y m = .ok m' ∧
      (∀ ρ, InRange (rs.map ρ) r.dims → r.val m' (rs.map ρ) = some (R (rs.map ρ) +
        sumOver len (fun σ => X (xs.map σ) * Y (ys.map (seen xs rs σ))) (onlyIn xs rs) ρ)) ∧
      ∀ q, (∀ ρ, InRange (rs.map ρ) r.dims → q ≠ r.cell (rs.map ρ)) → m' q = m q := by
  have hrl : rs.length = r.strides.length := by rw [hrw, hrd]; simp
  have hxl : xs.length = x.strides.length := by rw [hxw, hxd]; simp
  have hyl : ys.length = y.strides.length := by rw [hyw, hyd]; simp
  let f : Form := { direct := (common rs (xs ++ ys)).map fun c => (positions c rs, positions c xs, positions c ys)
                    sums := (onlyIn xs rs).map fun c => (positions c xs, positions c ys)
                    bcasts := (onlyIn rs (xs ++ ys)).map (positions · rs) }
  obtain ⟨m', e, h1, h2⟩ := runFn_spec (· * ·) 3 f
    r x y rs xs ys _ (onlyIn xs rs) _ len hrd hxd hyd hrl hxl hyl hdist hax hay
    groups_result.1 groups_operand.1 groups_result.2 groups_operand.2
    (fun d hd hn => hY0 d (Einsum.mem_onlyIn.2 ⟨hd, fun h => hn ((known_second hd).2 h)⟩)) hT hB rfl rfl
    (realSloops f r x y)
    (fun t m => realSloops_eq f r x y (onlyIn xs rs) xs ys _ len rfl hS hg _ t m) m R X Y hR hX hY
  refine ⟨m', ?_, ?_, h2⟩
  · unfold realEinsum realRun
    rw [C224_real hx hy hr]
    exact e
  · intro ρ hρ
    rw [h1 ρ hρ]
    simp only [seen_map]

theorem no_summed {xs ys rs : List Char} (h : ∀ c ∈ xs ++ ys, c ∈ rs) : onlyIn xs rs = [] ∧ onlyIn ys (xs ++ rs) = [] := by
  constructor
  · rw [List.eq_nil_iff_forall_not_mem]
    exact fun c hc => (Einsum.mem_onlyIn.1 hc).2 (h c (List.mem_append_left _ (Einsum.mem_onlyIn.1 hc).1))
  · rw [List.eq_nil_iff_forall_not_mem]
    exact fun c hc => (Einsum.mem_onlyIn.1 hc).2 (List.mem_append_right _ (h c (List.mem_append_right _ (Einsum.mem_onlyIn.1 hc).1)))

/-- When every letter of the operands is a letter of the result, the result gains the products. -/
theorem C226_products [NonUnitalNonAssocSemiring α] {xs ys rs : List Char} (hx : Names xs) (hy : Names ys) (hr : Names rs)
    (hT : (common rs (xs ++ ys)).length ≤ 3) (hsub : ∀ c ∈ xs ++ ys, c ∈ rs) (hB : (onlyIn rs (xs ++ ys)).length ≤ 3) (len : Char → Nat)
    (r x y : View) (hrd : r.dims = rs.map len) (hxd : x.dims = xs.map len) (hyd : y.dims = ys.map len)
    (hrw : r.WF) (hxw : x.WF) (hyw : y.WF) (hdist : r.Distinct) (hax : r.Apart x) (hay : r.Apart y)
    (m : Buf α) (R X Y : List Nat → α) (hR : ∀ ix, InRange ix r.dims → r.val m ix = some (R ix))
    (hX : ∀ ix, InRange ix x.dims → x.val m ix = some (X ix)) (hY : ∀ ix, InRange ix y.dims → y.val m ix = some (Y ix)) :
    ∃ m', realEinsum (written xs ys rs) r x y m = .ok m' ∧
      (∀ ρ, InRange (rs.map ρ) r.dims → r.val m' (rs.map ρ) = some (R (rs.map ρ) + X (xs.map ρ) * Y (ys.map ρ))) ∧
      ∀ q, (∀ ρ, InRange (rs.map ρ) r.dims → q ≠ r.cell (rs.map ρ)) → m' q = m q := by
  obtain ⟨e1, e2⟩ := no_summed hsub
  obtain ⟨m', e, h1, h2⟩ := real_core hx hy hr hT (by simp [e1]) hB len (positive e2) r x y hrd hxd hyd hrw hxw hyw hdist hax hay
    (by rw [e1]; intro c hc; simp at hc) m R X Y hR hX hY
  refine ⟨m', e, fun ρ hρ => ?_, h2⟩
  rw [h1 ρ hρ, e1]
  simp only [sumOver, seen_eq e2]

/-- "i,jj->jib": the diagonal of the second operand, a transposed result, copied along `b`. -/
example : ∃ m', realEinsum "i,jj->jib".toList ⟨0, [2, 1, 2], [1, 4, 2]⟩ ⟨4, [1], [1]⟩ ⟨5, [2, 2], [2, 1]⟩
      (Buf.ofList [(1 : Int), 2, 3, 4, 10, 5, 6, 7, 8]) = .ok m' ∧
    (∀ ρ, InRange ("jib".toList.map ρ) [2, 1, 2] → (⟨0, [2, 1, 2], [1, 4, 2]⟩ : View).val m' ("jib".toList.map ρ) =
      some (entries ⟨0, [2, 1, 2], [1, 4, 2]⟩ (Buf.ofList [(1 : Int), 2, 3, 4, 10, 5, 6, 7, 8]) ("jib".toList.map ρ) +
        entries ⟨4, [1], [1]⟩ (Buf.ofList [(1 : Int), 2, 3, 4, 10, 5, 6, 7, 8]) ("i".toList.map ρ) *
        entries ⟨5, [2, 2], [2, 1]⟩ (Buf.ofList [(1 : Int), 2, 3, 4, 10, 5, 6, 7, 8]) ("jj".toList.map ρ))) ∧
    ∀ q, (∀ ρ, InRange ("jib".toList.map ρ) [2, 1, 2] → q ≠ (⟨0, [2, 1, 2], [1, 4, 2]⟩ : View).cell ("jib".toList.map ρ)) →
      m' q = Buf.ofList [(1 : Int), 2, 3, 4, 10, 5, 6, 7, 8] q :=
  C226_products (xs := "i".toList) (ys := "jj".toList) (rs := "jib".toList) (by decide) (by decide) (by decide) (by decide) (by decide)
    (by decide) (fun c => if c = 'i' then 1 else 2) ⟨0, [2, 1, 2], [1, 4, 2]⟩ ⟨4, [1], [1]⟩ ⟨5, [2, 2], [2, 1]⟩ (by decide) (by decide)
    (by decide) rfl rfl rfl (by decide) (by decide) (by decide) _ _ _ _ (entries_of (by decide)) (entries_of (by decide))
    (entries_of (by decide))

/-! ### C227 real einsum with summation -/

/-- Sizes and strides of `r` are used for the summed letters, so the sum is right when all axes have one size and the three views have the
same strides, as for square matrices.  Missing: all other views, see `C227_product_fails`, `C227_trace_fails`. -/
theorem C227_square_partial [NonUnitalNonAssocSemiring α] {xs ys rs : List Char} (hx : Names xs) (hy : Names ys) (hr : Names rs)
    (hT : (common rs (xs ++ ys)).length ≤ 3) (hS : (onlyIn xs rs).length ≤ 3)
    (hB : (onlyIn rs (xs ++ ys)).length ≤ 3) (hY0 : onlyIn ys (xs ++ rs) = []) (n : Nat)
    (r x y : View) (hrd : r.dims = rs.map fun _ => n) (hxd : x.dims = xs.map fun _ => n) (hyd : y.dims = ys.map fun _ => n)
    (hrw : r.WF) (hxw : x.WF) (hyw : y.WF) (hsx : x.strides = r.strides) (hsy : y.strides = r.strides)
    (hdist : r.Distinct) (hax : r.Apart x) (hay : r.Apart y)
    (m : Buf α) (R X Y : List Nat → α) (hR : ∀ ix, InRange ix r.dims → r.val m ix = some (R ix))
    (hX : ∀ ix, InRange ix x.dims → x.val m ix = some (X ix)) (hY : ∀ ix, InRange ix y.dims → y.val m ix = some (Y ix)) :
    ∃ m', realEinsum (written xs ys rs) r x y m = .ok m' ∧
      (∀ ρ, InRange (rs.map ρ) r.dims → r.val m' (rs.map ρ) = some (R (rs.map ρ) +
        sumOver (fun _ => n) (fun σ => X (xs.map σ) * Y (ys.map σ)) (onlyIn (xs ++ ys) rs) ρ)) ∧
      ∀ q, (∀ ρ, InRange (rs.map ρ) r.dims → q ≠ r.cell (rs.map ρ)) → m' q = m q := by
  have hxl : xs.length = r.strides.length := by rw [← hsx, hxw, hxd]; simp
  have hyl : ys.length = r.strides.length := by rw [← hsy, hyw, hyd]; simp
  have hrx : r.dims = xs.map fun _ => n := by
    have : rs.length = xs.length := by
      have : rs.length = r.strides.length := by rw [hrw, hrd]; simp
      omega
    rw [hrd, List.map_const', List.map_const', this]
  obtain ⟨m', e, h1, h2⟩ := real_core hx hy hr hT hS hB (fun _ => n) (positive hY0) r x y hrd hxd hyd hrw hxw hyw hdist hax hay
    (fun c hc => ⟨by rw [hrx]; exact Einsum.dimAt_eq c xs _ (Einsum.mem_onlyIn.1 hc).1, by rw [hsx]; exact combine_eq c _ _ hxl,
      by rw [hsy]; exact combine_eq c _ _ hyl⟩) m R X Y hR hX hY
  refine ⟨m', e, fun ρ hρ => ?_, h2⟩
  rw [h1 ρ hρ, summed_eq hY0]
  simp only [seen_eq hY0]

example : ∃ m', realEinsum "ij,jk->ik".toList ⟨0, [2, 2], [2, 1]⟩ ⟨4, [2, 2], [2, 1]⟩ ⟨8, [2, 2], [2, 1]⟩
      (Buf.ofList [(0 : Int), 0, 0, 0, 1, 2, 3, 4, 5, 6, 7, 8]) = .ok m' ∧
    (∀ ρ, InRange ("ik".toList.map ρ) [2, 2] → (⟨0, [2, 2], [2, 1]⟩ : View).val m' ("ik".toList.map ρ) =
      some (entries ⟨0, [2, 2], [2, 1]⟩ (Buf.ofList [(0 : Int), 0, 0, 0, 1, 2, 3, 4, 5, 6, 7, 8]) ("ik".toList.map ρ) +
        sumOver (fun _ => 2) (fun σ => entries ⟨4, [2, 2], [2, 1]⟩ (Buf.ofList [(0 : Int), 0, 0, 0, 1, 2, 3, 4, 5, 6, 7, 8]) ("ij".toList.map σ) *
          entries ⟨8, [2, 2], [2, 1]⟩ (Buf.ofList [(0 : Int), 0, 0, 0, 1, 2, 3, 4, 5, 6, 7, 8]) ("jk".toList.map σ))
          (onlyIn ("ij".toList ++ "jk".toList) "ik".toList) ρ)) ∧
    ∀ q, (∀ ρ, InRange ("ik".toList.map ρ) [2, 2] → q ≠ (⟨0, [2, 2], [2, 1]⟩ : View).cell ("ik".toList.map ρ)) →
      m' q = Buf.ofList [(0 : Int), 0, 0, 0, 1, 2, 3, 4, 5, 6, 7, 8] q :=
  C227_square_partial (xs := "ij".toList) (ys := "jk".toList) (rs := "ik".toList) (by decide) (by decide) (by decide) (by decide) (by decide)
    (by decide) (by decide) 2 ⟨0, [2, 2], [2, 1]⟩ ⟨4, [2, 2], [2, 1]⟩ ⟨8, [2, 2], [2, 1]⟩ rfl rfl rfl rfl rfl rfl rfl rfl
    (by decide) (by decide) (by decide) _ _ _ _ (entries_of (by decide)) (entries_of (by decide)) (entries_of (by decide))

/-- Row times column, "ij,jk->ik": of 1·10+2·100 only the first term is added, since the result has size 1 there. -/
theorem C227_product_fails : ∃ (r x y : View) (m m' : Buf Int), r.dims = [1, 1] ∧ x.dims = [1, 2] ∧ y.dims = [2, 1] ∧
    r.WF ∧ x.WF ∧ y.WF ∧ r.Distinct ∧ r.Apart x ∧ r.Apart y ∧ r.val m [0, 0] = some 0 ∧ x.val m [0, 0] = some 1 ∧ x.val m [0, 1] = some 2 ∧
    y.val m [0, 0] = some 10 ∧ y.val m [1, 0] = some 100 ∧ realEinsum "ij,jk->ik".toList r x y m = .ok m' ∧ r.val m' [0, 0] = some 10 :=
  ⟨⟨0, [1, 1], [1, 1]⟩, ⟨1, [1, 2], [2, 1]⟩, ⟨3, [2, 1], [1, 1]⟩, Buf.ofList [0, 1, 2, 10, 100], _, rfl, rfl, rfl, rfl, rfl, rfl,
    by decide, by decide, by decide, by decide, by decide, by decide, by decide, by decide, rfl, by decide⟩

/-- The product of all entries of two vectors, "i,i->", reads the sizes of a result that has no axis. -/
theorem C227_trace_fails (r x y : View) (hr : r.dims = []) (m : Buf Int) : realEinsum "i,i->".toList r x y m = .ub := by
  obtain ⟨o, d, s⟩ := r
  obtain rfl : d = [] := hr
  rfl

/-! ### C228 three summed letters with a conjugated first operand -/

/-- With three summed letters and the first operand conjugated, the second operand is conjugated exactly when it should not be.
Missing: the sum asked for, see `C228_three_fails`. -/
theorem C228_three_partial [CommSemiring α] [StarRing α] {xs ys rs : List Char} (hx : Names xs) (hy : Names ys) (hr : Names rs) (a b c : Bool)
    (nx : plainStar a xs ≠ []) (ny : plainStar b ys ≠ []) (nr : plainStar c rs ≠ [])
    (hT : (common rs (xs ++ ys)).length ≤ 4) (hS : (onlyIn xs rs).length = 3) (hac : a ≠ c)
    (hB : (onlyIn rs (xs ++ ys)).length ≤ 3) (hY0 : onlyIn ys (xs ++ rs) = []) (len : Char → Nat)
    (r x y : View) (hrd : r.dims = rs.map len) (hxd : x.dims = xs.map len) (hyd : y.dims = ys.map len)
    (hrw : r.WF) (hxw : x.WF) (hyw : y.WF) (hdist : r.Distinct) (hax : r.Apart x) (hay : r.Apart y)
    (m : Buf α) (R X Y : List Nat → α) (hR : ∀ ix, InRange ix r.dims → r.val m ix = some (R ix))
    (hX : ∀ ix, InRange ix x.dims → x.val m ix = some (X ix)) (hY : ∀ ix, InRange ix y.dims → y.val m ix = some (Y ix)) :
    ∃ m', complexEinsum star (written (plainStar a xs) (plainStar b ys) (plainStar c rs)) r x y m = .ok m' ∧
      (∀ ρ, InRange (rs.map ρ) r.dims → r.val m' (rs.map ρ) = some (R (rs.map ρ) +
        conjIf c (sumOver len (fun σ => conjIf a (X (xs.map σ)) * conjIf (! b) (Y (ys.map σ))) (onlyIn (xs ++ ys) rs) ρ))) ∧
      ∀ q, (∀ ρ, InRange (rs.map ρ) r.dims → q ≠ r.cell (rs.map ρ)) → m' q = m q := by
  obtain ⟨m', e, h1, h2⟩ := complex_core hx hy hr a b c nx ny nr hT (by omega) hB len (positive hY0) r x y hrd hxd hyd hrw hxw hyw
    hdist hax hay m R X Y hR hX hY
  refine ⟨m', e, fun ρ hρ => ?_, h2⟩
  have hflag : (if (onlyIn xs rs).length = 3 && (a != c) then ! (b != c) else (b != c)) = ((! b) != c) := by
    have : (a != c) = true := bne_iff_ne.2 hac
    rw [hS, this]
    cases b <;> cases c <;> rfl
  rw [h1 ρ hρ, summed_eq hY0, hflag]
  simp only [seen_eq hY0, conj_prod, conj_sum]

example : ∃ m', complexEinsum star "ijk*,ijk->l".toList ⟨0, [1], [1]⟩ ⟨1, [2, 1, 1], [1, 1, 1]⟩ ⟨3, [2, 1, 1], [1, 1, 1]⟩
      (Buf.ofList [⟨0, 0⟩, ⟨1, 2⟩, ⟨0, 1⟩, ⟨3, 1⟩, ⟨5, 1⟩] : Buf Gi) = .ok m' :=
  Exists.imp (fun _ h => h.1) <| C228_three_partial (xs := "ijk".toList) (ys := "ijk".toList) (rs := "l".toList) (by decide) (by decide) (by decide) true false false
    (by decide) (by decide) (by decide) (by decide) (by decide) (by decide) (by decide) (by decide) (fun c => if c = 'i' then 2 else 1)
    ⟨0, [1], [1]⟩ ⟨1, [2, 1, 1], [1, 1, 1]⟩ ⟨3, [2, 1, 1], [1, 1, 1]⟩ (by decide) (by decide) (by decide) rfl rfl rfl
    (by decide) (by decide) (by decide) _ _ _ _ (entries_of (by decide)) (entries_of (by decide)) (entries_of (by decide))

/-- "ijk*,ijk->l" with one entry each: 1* times i is given as -i. -/
theorem C228_three_fails : ∃ (r x y : View) (m m' : Buf Gi), r.dims = [1] ∧ x.dims = [1, 1, 1] ∧ y.dims = [1, 1, 1] ∧
    r.WF ∧ x.WF ∧ y.WF ∧ r.Distinct ∧ r.Apart x ∧ r.Apart y ∧ r.val m [0] = some ⟨0, 0⟩ ∧ x.val m [0, 0, 0] = some ⟨1, 0⟩ ∧
    y.val m [0, 0, 0] = some ⟨0, 1⟩ ∧ complexEinsum star "ijk*,ijk->l".toList r x y m = .ok m' ∧ r.val m' [0] = some ⟨0, -1⟩ :=
  ⟨⟨0, [1], [1]⟩, ⟨1, [1, 1, 1], [1, 1, 1]⟩, ⟨2, [1, 1, 1], [1, 1, 1]⟩, Buf.ofList [⟨0, 0⟩, ⟨1, 0⟩, ⟨0, 1⟩], _, rfl, rfl, rfl, rfl, rfl,
    rfl, by decide, by decide, by decide, by decide, by decide, by decide, rfl, by decide⟩

/-! ### C229 letters of the second operand only -/

/-- Letters that only the second operand has are not summed: the value at index zero is used.  Missing: the sum asked for, see
`C229_second_fails`. -/
theorem C229_second_partial [CommSemiring α] [StarRing α] {xs ys rs : List Char} (hx : Names xs) (hy : Names ys) (hr : Names rs)
    (nx : xs ≠ []) (ny : ys ≠ []) (nr : rs ≠ [])
    (hT : (common rs (xs ++ ys)).length ≤ 4) (hS : (onlyIn xs rs).length ≤ 3)
    (hB : (onlyIn rs (xs ++ ys)).length ≤ 3) (len : Char → Nat) (hY0 : ∀ c ∈ onlyIn ys (xs ++ rs), 0 < len c)
    (r x y : View) (hrd : r.dims = rs.map len) (hxd : x.dims = xs.map len) (hyd : y.dims = ys.map len)
    (hrw : r.WF) (hxw : x.WF) (hyw : y.WF) (hdist : r.Distinct) (hax : r.Apart x) (hay : r.Apart y)
    (m : Buf α) (R X Y : List Nat → α) (hR : ∀ ix, InRange ix r.dims → r.val m ix = some (R ix))
    (hX : ∀ ix, InRange ix x.dims → x.val m ix = some (X ix)) (hY : ∀ ix, InRange ix y.dims → y.val m ix = some (Y ix)) :
    ∃ m', complexEinsum star (written xs ys rs) r x y m = .ok m' ∧
      (∀ ρ, InRange (rs.map ρ) r.dims → r.val m' (rs.map ρ) = some (R (rs.map ρ) +
        sumOver len (fun σ => X (xs.map σ) * Y (ys.map fun c => if c ∈ xs ++ rs then σ c else 0)) (onlyIn xs rs) ρ)) ∧
      ∀ q, (∀ ρ, InRange (rs.map ρ) r.dims → q ≠ r.cell (rs.map ρ)) → m' q = m q := by
  obtain ⟨m', e, h1, h2⟩ := complex_core hx hy hr false false false nx ny nr hT hS hB len hY0 r x y hrd hxd hyd hrw hxw hyw
    hdist hax hay m R X Y hR hX hY
  refine ⟨m', e, fun ρ hρ => ?_, h2⟩
  rw [h1 ρ hρ]
  simp only [flip, bne_self_eq_false, Bool.and_false, Bool.false_eq_true, if_false]
  rfl

example : ∃ m', complexEinsum star "i,ij->i".toList ⟨0, [1], [1]⟩ ⟨1, [1], [1]⟩ ⟨2, [1, 2], [2, 1]⟩
      (Buf.ofList [0, 1, 10, 100] : Buf Gi) = .ok m' :=
  Exists.imp (fun _ h => h.1) <| C229_second_partial (xs := "i".toList) (ys := "ij".toList) (rs := "i".toList) (by decide) (by decide) (by decide)
    (by decide) (by decide) (by decide) (by decide) (by decide) (by decide) (fun c => if c = 'j' then 2 else 1) (by decide)
    ⟨0, [1], [1]⟩ ⟨1, [1], [1]⟩ ⟨2, [1, 2], [2, 1]⟩ (by decide) (by decide) (by decide) rfl rfl rfl
    (by decide) (by decide) (by decide) _ _ _ _ (entries_of (by decide)) (entries_of (by decide)) (entries_of (by decide))

/-- "i,ij->i" with one row 10, 100: the result is 10 for both functors. -/
theorem C229_second_fails : ∃ (r x y : View) (m m' : Buf Gi), r.dims = [1] ∧ x.dims = [1] ∧ y.dims = [1, 2] ∧
    r.WF ∧ x.WF ∧ y.WF ∧ r.Distinct ∧ r.Apart x ∧ r.Apart y ∧ r.val m [0] = some 0 ∧ x.val m [0] = some 1 ∧
    y.val m [0, 0] = some 10 ∧ y.val m [0, 1] = some 100 ∧ complexEinsum star "i,ij->i".toList r x y m = .ok m' ∧
    realEinsum "i,ij->i".toList r x y m = .ok m' ∧ r.val m' [0] = some 10 :=
  ⟨⟨0, [1], [1]⟩, ⟨1, [1], [1]⟩, ⟨2, [1, 2], [2, 1]⟩, Buf.ofList [0, 1, 10, 100], _, rfl, rfl, rfl, rfl, rfl,
    rfl, by decide, by decide, by decide, by decide, by decide, by decide, by decide, rfl, rfl, by decide⟩

/-! ### C230 more letters than there are loops -/

/-- With more than three letters shared by result and operands the real functor does nothing, with more than four the complex one.
Missing: that this is refused, see `C230_many_fails`. -/
theorem C230_many_partial [NonUnitalNonAssocSemiring α] {xs ys rs : List Char} (hx : Names xs) (hy : Names ys) (hr : Names rs)
    (r x y : View) (m : Buf α) (cj : α → α) :
    (3 < (common rs (xs ++ ys)).length → realEinsum (written xs ys rs) r x y m = .ok m) ∧
    (4 < (common rs (xs ++ ys)).length → xs ≠ [] → ys ≠ [] → complexEinsum cj (written xs ys rs) r x y m = .ok m) := by
  refine ⟨fun h => ?_, fun h nx ny => ?_⟩
  · unfold realEinsum realRun runFn
    rw [C224_real hx hy hr, if_neg (by simpa using h)]
  · have nr : rs ≠ [] := by rintro rfl; simp [common, Einsum.letters] at h
    have := C224_complex hx hy hr false false false nx ny nr
    unfold complexEinsum
    rw [show written xs ys rs = written (plainStar false xs) (plainStar false ys) (plainStar false rs) from rfl, this, Res.ok_bind]
    dsimp only
    unfold complexRun runFn
    rw [if_neg (by simpa using h)]

example : 3 < (common "ijkl".toList ("ijkl".toList ++ "ijkl".toList)).length := by decide

/-- "ijkl,ijkl->ijkl" with one entry each: 1 times 1 is not added. -/
theorem C230_many_fails : ∃ (r x y : View) (m m' : Buf Int), r.dims = [1, 1, 1, 1] ∧ x.dims = [1, 1, 1, 1] ∧ y.dims = [1, 1, 1, 1] ∧
    r.WF ∧ x.WF ∧ y.WF ∧ r.Distinct ∧ r.Apart x ∧ r.Apart y ∧ r.val m [0, 0, 0, 0] = some 0 ∧ x.val m [0, 0, 0, 0] = some 1 ∧
    y.val m [0, 0, 0, 0] = some 1 ∧ realEinsum "ijkl,ijkl->ijkl".toList r x y m = .ok m' ∧ r.val m' [0, 0, 0, 0] = some 0 :=
  ⟨⟨0, [1, 1, 1, 1], [1, 1, 1, 1]⟩, ⟨1, [1, 1, 1, 1], [1, 1, 1, 1]⟩, ⟨2, [1, 1, 1, 1], [1, 1, 1, 1]⟩, Buf.ofList [0, 1, 1], _,
    rfl, rfl, rfl, rfl, rfl, rfl, by decide, by decide, by decide, by decide, by decide, by decide, rfl, by decide⟩

/-! ### C231 malformed strings -/

theorem split3_none {s : List Char} (h : ',' ∉ s) : split3 s = none := by
  unfold split3
  have : s.findIdx? (· == ',') = none := by
    rw [List.findIdx?_eq_none_iff]
    intro c hc
    have : c ≠ ',' := fun e => h (e ▸ hc)
    simpa using this
  rw [this]

/-- A string without a comma is not refused: the real functor adds the product of the first entries, the complex one reads flags that
have no value. -/
theorem C231_malformed_fails {s : List Char} (h : ',' ∉ s) (r x y : View) (m : Buf Int) (cj : Int → Int) {a b c : Int}
    (hr : m r.off = some c) (hx : m x.off = some a) (hy : m y.off = some b) :
    (∃ m', realEinsum s r x y m = .ok m' ∧ m' r.off = some (c + a * b)) ∧ complexEinsum cj s r x y m = .ub := by
  refine ⟨⟨fun q => if q = r.off then some (c + a * b) else m q, ?_, ?_⟩, ?_⟩
  · unfold realEinsum realForm
    rw [split3_none h]
    simp [realRun, runFn, dirAxes, nest, realSloops, bloops, bcastAxes, lin, Buf.read, Buf.write, hr, hx, hy]
  · simp
  · unfold complexEinsum complexForm
    rw [split3_none h]
    rfl

example : (∃ m', realEinsum "ii->i".toList ⟨0, [1], [1]⟩ ⟨1, [1], [1]⟩ ⟨2, [1], [1]⟩ (Buf.ofList [(1 : Int), 2, 3]) = .ok m' ∧ m' 0 = some (1 + 2 * 3)) ∧
    complexEinsum id "ii->i".toList ⟨0, [1], [1]⟩ ⟨1, [1], [1]⟩ ⟨2, [1], [1]⟩ (Buf.ofList [(1 : Int), 2, 3]) = .ub :=
  C231_malformed_fails (by decide) ⟨0, [1], [1]⟩ ⟨1, [1], [1]⟩ ⟨2, [1], [1]⟩ _ id rfl rfl rfl

/-- The complex functor looks at the last letter of a part that has none: a result or operand without an axis is undefined. -/
theorem C231_scalar_fails {xs ys : List Char} (hx : Names xs) (hy : Names ys) (r x y : View) (m : Buf Int) (cj : Int → Int) :
    complexEinsum cj (written xs ys []) r x y m = .ub := by
  unfold complexEinsum complexForm written
  rw [split3_eq hx.comma hx.gt hy.gt]
  rfl

example : complexEinsum id "ij,ij->".toList ⟨0, [], []⟩ ⟨1, [1, 1], [1, 1]⟩ ⟨2, [1, 1], [1, 1]⟩ (Buf.ofList [(1 : Int), 2, 3]) = .ub :=
  C231_scalar_fails (xs := "ij".toList) (ys := "ij".toList) (by decide) (by decide) _ _ _ _ id

/-! ### C232 the letter x -/

/-- Whatever letters are used, those called `x` are left out of all groups. -/
theorem C232_placeholder_partial {xs ys rs : List Char} (hx : ',' ∉ xs ∧ '>' ∉ xs) (hy : '>' ∉ ys) :
    realForm (written xs ys rs) =
      { direct := ((common rs (xs ++ ys)).filter (· ≠ 'x')).map fun c => (positions c rs, positions c xs, positions c ys)
        sums := ((onlyIn xs rs).filter (· ≠ 'x')).map fun c => (positions c xs, positions c ys)
        bcasts := ((onlyIn rs (xs ++ ys)).filter (· ≠ 'x')).map (positions · rs) } := by
  unfold realForm written
  rw [split3_eq hx.1 hx.2 hy]
  dsimp only
  rw [analyse_named]
  unfold named common onlyIn
  congr 1
  · simp only [List.filter_filter, Bool.and_comm]
  · rw [List.filter_filter, List.filter_filter]
    congr 1
    apply List.filter_congr
    intro c _
    by_cases e : c = 'x' <;> simp [e, Einsum.mem_letters]
  · simp only [List.filter_filter, Bool.and_comm]

example : realForm "xi,ix->i".toList = { direct := [([0], [1], [0])], sums := [], bcasts := [] } := by
  have := C232_placeholder_partial (xs := "xi".toList) (ys := "ix".toList) (rs := "i".toList) (by decide) (by decide)
  exact this.trans (by decide)

/-- "x,x->x" multiplies the first entries only. -/
theorem C232_placeholder_fails : ∃ (r x y : View) (m m' : Buf Int), r.dims = [2] ∧ x.dims = [2] ∧ y.dims = [2] ∧
    r.WF ∧ x.WF ∧ y.WF ∧ r.Distinct ∧ r.Apart x ∧ r.Apart y ∧ r.val m [1] = some 0 ∧ x.val m [1] = some 2 ∧
    y.val m [1] = some 3 ∧ realEinsum "x,x->x".toList r x y m = .ok m' ∧ r.val m' [1] = some 0 :=
  ⟨⟨0, [2], [1]⟩, ⟨2, [2], [1]⟩, ⟨4, [2], [1]⟩, Buf.ofList [0, 0, 1, 2, 1, 3], _,
    rfl, rfl, rfl, rfl, rfl, rfl, by decide, by decide, by decide, by decide, by decide, by decide, rfl, by decide⟩

/-! ### C233 sizes that do not fit -/

/-- "i,i->i" with a result of two entries and an operand of one: the cell behind the operand is used. -/
theorem C233_sizes_fails : ∃ (r x y : View) (m m' : Buf Int), r.dims = [2] ∧ x.dims = [1] ∧ y.dims = [2] ∧
    r.WF ∧ x.WF ∧ y.WF ∧ r.Distinct ∧ r.Apart x ∧ r.Apart y ∧ r.val m [1] = some 0 ∧ (∀ ix, InRange ix x.dims → x.cell ix ≠ 3) ∧
    m 3 = some 7 ∧ y.val m [1] = some 3 ∧ realEinsum "i,i->i".toList r x y m = .ok m' ∧ r.val m' [1] = some 21 :=
  ⟨⟨0, [2], [1]⟩, ⟨2, [1], [1]⟩, ⟨4, [2], [1]⟩, Buf.ofList [0, 0, 1, 7, 1, 3], _,
    rfl, rfl, rfl, rfl, rfl, rfl, by decide, by decide, by decide, by decide,
    fun ix hix => (show ∀ ix ∈ allIndices [1], (⟨2, [1], [1]⟩ : View).cell ix ≠ 3 by decide) ix (mem_allIndices.2 hix), by decide, by decide,
    rfl, by decide⟩

/-- Strides of an operand with fewer axes than letters are refused by `combine`. -/
theorem C233_axes_partial {xs ys rs : List Char} (hx : Names xs) (hy : Names ys) (hr : Names rs) (hT : (common rs (xs ++ ys)).length ≤ 3)
    {c : Char} (hc : common rs (xs ++ ys) = [c]) (r x y : View) (n s : Nat) (hrd : Einsum.dimAt r.dims (positions c rs) = .ok n)
    (hrs : combine r.strides (positions c rs) = .ok s) (p : Nat) (hp : (positions c xs).head? = some p) (hlx : x.strides.length ≤ p)
    (m : Buf Int) : realEinsum (written xs ys rs) r x y m = .throw := by
  unfold realEinsum realRun runFn
  rw [C224_real hx hy hr, if_pos (by simpa using hT), hc]
  simp only [List.map_cons, List.map_nil, dirAxes, hrd, hrs, Res.ok_bind]
  obtain ⟨l, e⟩ : ∃ l, positions c xs = p :: l := by
    cases h : positions c xs with
    | nil => rw [h] at hp; simp at hp
    | cons q l => rw [h] at hp; simp at hp; exact ⟨l, by rw [hp]⟩
  rw [e]
  have : combine x.strides (p :: l) = .throw := by
    unfold combine
    rw [Res.forM_cons, decide_eq_false (by omega)]
    rfl
  rw [this]
  rfl

example : realEinsum "i,i->i".toList ⟨0, [2], [1]⟩ ⟨2, [], []⟩ ⟨4, [2], [1]⟩ (Buf.ofList [(0 : Int), 0, 1, 7, 1, 3]) = .throw :=
  C233_axes_partial (xs := "i".toList) (ys := "i".toList) (rs := "i".toList) (c := 'i') (by decide) (by decide) (by decide) (by decide) (by decide)
    ⟨0, [2], [1]⟩ ⟨2, [], []⟩ ⟨4, [2], [1]⟩ 2 1 (by decide) (by decide) 0 (by decide) (by decide) _

end EinsumFn
end Cnine
