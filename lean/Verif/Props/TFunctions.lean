import Verif.Lemmas.TFunctions
import Verif.Props.BGprod
import Verif.Props.Pool

/-! # C196–C206 functions that return new tensors -/

namespace Cnine

variable {α : Type}

namespace TFun

open View

/-! ## C196 -/

/-- `x+y`: a new tensor with the sums; `x`, `y` and everything else unchanged. -/
theorem C196_plus [AddMonoid α] (q : Nat) (x y : View) (hx : x.WF) (hy : y.WF) (hd : x.dims = y.dims)
    (hs : ∀ s ∈ rmStrides x.dims, s < intMax) (m : Buf α) (X Y : List Nat → α) (hX : Shows m x X) (hY : Shows m y Y)
    (hox : Outside q x.dims.prod x) (hoy : Outside q x.dims.prod y) : Gives (plus q x y m) m q x.dims fun ix => X ix + Y ix := by
  obtain ⟨m1, e1, h1⟩ := copy_ok q x hx hs m X hX hox
  have h2 := made_shows h1 hoy hY
  obtain ⟨m2, e2, hu⟩ := C17_add_partial (fun a b => a + b) (new q x.dims) y (new_WF q _) hy hd hs (new_nonzero q _) (new_distinct q _)
    (outside_aligned hoy) m1 (made_alloc h1) (shows_alloc h2)
  refine ⟨m2, ?_, made_upd h1 hu fun ix hix => ?_⟩
  · rw [plus, e1, Res.ok_bind]
    dsimp only
    rw [e2]; rfl
  · rw [h1.1 ix hix, h2 ix (by rw [← hd]; exact hix)]; rfl

/-- `x+y` of different shapes is refused. -/
theorem C196_plus_refuses [AddMonoid α] (q : Nat) (x y : View) (hx : x.WF) (hd : x.dims ≠ y.dims)
    (hs : ∀ s ∈ rmStrides x.dims, s < intMax) (m : Buf α) (X : List Nat → α) (hX : Shows m x X) (hox : Outside q x.dims.prod x) :
    plus q x y m = .throw := by
  obtain ⟨m1, e1, -⟩ := copy_ok q x hx hs m X hX hox
  rw [plus, e1, Res.ok_bind]
  dsimp only
  rw [C17_add_refuses _ (new q x.dims) y hd]; rfl

/-- `x-y`: a new tensor with the differences. -/
theorem C196_minus [AddGroup α] (q : Nat) (x y : View) (hx : x.WF) (hy : y.WF) (hd : x.dims = y.dims)
    (hs : ∀ s ∈ rmStrides x.dims, s < intMax) (m : Buf α) (X Y : List Nat → α) (hX : Shows m x X) (hY : Shows m y Y)
    (hox : Outside q x.dims.prod x) (hoy : Outside q x.dims.prod y) : Gives (minus q x y m) m q x.dims fun ix => X ix - Y ix := by
  obtain ⟨m1, e1, h1⟩ := copy_ok q x hx hs m X hX hox
  have h2 := made_shows h1 hoy hY
  obtain ⟨m2, e2, hu⟩ := C17_add_scaled (fun a b => a - b) (new q x.dims) y (new_WF q _) hy hd (new_distinct q _)
    (outside_aligned hoy) m1 (made_alloc h1) (shows_alloc h2)
  refine ⟨m2, ?_, made_upd h1 hu fun ix hix => ?_⟩
  · rw [minus, e1, Res.ok_bind]
    dsimp only
    rw [subtract, show asize (new q x.dims).dims = asize y.dims by rw [← hd]; rfl, decide_eq_true rfl, Res.assrt_true, Res.ok_bind, e2]
    rfl
  · rw [h1.1 ix hix, h2 ix (by rw [← hd]; exact hix)]; rfl

/-- `x*c`, `c*x` and `times(c)`: a new tensor with the multiples. -/
theorem C196_times [NonUnitalNonAssocSemiring α] (c : α) (q : Nat) (x : View) (hx : x.WF) (m : Buf α) (X : List Nat → α)
    (hX : Shows m x X) (hox : Outside q x.dims.prod x) : Gives (timesC c q x m) m q x.dims fun ix => c * X ix := by
  obtain ⟨m2, e2, h2⟩ := addTimes_ok c hx (made_zero q x.dims m) hX hox
  refine ⟨m2, by rw [timesC, e2]; rfl, ?_⟩
  simpa only [zero_add] using h2

/-- `-x`: a new tensor with the negatives. -/
theorem C196_neg [NonAssocRing α] (q : Nat) (x : View) (hx : x.WF) (m : Buf α) (X : List Nat → α)
    (hX : Shows m x X) (hox : Outside q x.dims.prod x) : Gives (neg q x m) m q x.dims fun ix => -X ix := by
  have := C196_times (-1) q x hx m X hX hox
  simp only [neg_one_mul] at this
  exact this

/-- A tensor with two cells apart, and one without gaps. -/
def m0 : Buf Int := Buf.ofList [1, 0, 2, 10, 20]

example : (plus 5 ⟨0, [2], [2]⟩ ⟨3, [2], [1]⟩ m0).bind (fun r => .ok (r.1, (List.range 7).map r.2)) =
    .ok (⟨5, [2], [1]⟩, [some 1, some 0, some 2, some 10, some 20, some 11, some 22]) := by decide
example : (minus 5 ⟨0, [2], [2]⟩ ⟨3, [2], [1]⟩ m0).bind (fun r => .ok ((List.range 7).map r.2)) =
    .ok [some 1, some 0, some 2, some 10, some 20, some (-9), some (-18)] := by decide
example : (neg 5 ⟨0, [2], [2]⟩ m0).bind (fun r => .ok ((List.range 7).map r.2)) =
    .ok [some 1, some 0, some 2, some 10, some 20, some (-1), some (-2)] := by decide
example : plus 5 ⟨0, [2], [2]⟩ ⟨3, [1, 2], [2, 1]⟩ m0 = .throw := by
  refine C196_plus_refuses 5 ⟨0, [2], [2]⟩ _ rfl (by decide) (by decide) m0 (fun ix => if ix = [0] then 1 else 2)
    (shows_of (by decide)) (outside_of (by decide))

/-! ## C197 -/

/-- `c+x` and `x+c` for rank at least one.  Missing: rank 0, see `C197_rank0_fails`. -/
theorem C197_plus_partial [AddZeroClass α] (c : α) (q : Nat) (x : View) (hx : x.WF) (hne : x.dims ≠ [])
    (hs : ∀ s ∈ rmStrides x.dims, s < intMax) (m : Buf α) (X : List Nat → α) (hX : Shows m x X) (hox : Outside q x.dims.prod x) :
    Gives (plusC c q x m) m q x.dims fun ix => X ix + c := by
  obtain ⟨m1, e1, h1⟩ := copy_ok q x hx hs m X hX hox
  obtain ⟨m2, e2, h2⟩ := addScalar_ok (fun a => a + c) hne hs h1
  exact ⟨m2, by rw [plusC, e1, Res.ok_bind]; dsimp only; rw [e2]; rfl, h2⟩

/-- `x-c` for rank at least one. -/
theorem C197_minus_partial [AddGroup α] (c : α) (q : Nat) (x : View) (hx : x.WF) (hne : x.dims ≠ [])
    (hs : ∀ s ∈ rmStrides x.dims, s < intMax) (m : Buf α) (X : List Nat → α) (hX : Shows m x X) (hox : Outside q x.dims.prod x) :
    Gives (minusC c q x m) m q x.dims fun ix => X ix - c := by
  have := C197_plus_partial (-c) q x hx hne hs m X hX hox
  simp only [← sub_eq_add_neg] at this
  exact this

/-- `c-x` for rank at least one. -/
theorem C197_minus_from_partial [NonAssocRing α] (c : α) (q : Nat) (x : View) (hx : x.WF) (hne : x.dims ≠ [])
    (hs : ∀ s ∈ rmStrides x.dims, s < intMax) (m : Buf α) (X : List Nat → α) (hX : Shows m x X) (hox : Outside q x.dims.prod x) :
    Gives (cMinus c q x m) m q x.dims fun ix => c - X ix := by
  obtain ⟨m1, e1, h1⟩ := C196_neg q x hx m X hX hox
  obtain ⟨m2, e2, h2⟩ := addScalar_ok (fun a => a + c) hne hs h1
  refine ⟨m2, by rw [cMinus, e1, Res.ok_bind]; dsimp only; rw [e2]; rfl, ?_⟩
  simpa only [neg_add_eq_sub] using h2

/-- For a rank-0 tensor the number is dropped: `x+c` is `x`, `x-c` is `x` and `c-x` is `-x`. -/
theorem C197_rank0_fails (c : Int) : ∃ (x : View) (m : Buf Int), x.WF ∧ x.dims = [] ∧ Shows m x (fun _ => 7) ∧
    Gives (plusC c 1 x m) m 1 [] (fun _ => 7) ∧ Gives (minusC c 1 x m) m 1 [] (fun _ => 7) ∧
    Gives (cMinus c 1 x m) m 1 [] fun _ => -7 := by
  have hX : Shows (Buf.ofList [7]) ⟨0, [], []⟩ (fun _ => (7 : Int)) := by
    intro ix hix
    have : ix = [] := List.length_eq_zero_iff.1 hix.length
    subst this; rfl
  have ho : Outside 1 1 ⟨0, [], []⟩ := fun ix _ => by left; simp [View.cell, dot]
  obtain ⟨m1, e1, h1⟩ := copy_ok 1 ⟨0, [], []⟩ rfl (by intro s hs; cases hs) (Buf.ofList [7]) (fun _ => (7 : Int)) hX ho
  obtain ⟨m2, e2, h2⟩ := C196_neg 1 ⟨0, [], []⟩ rfl (Buf.ofList [7]) (fun _ => (7 : Int)) hX ho
  have key : ∀ c, Gives (plusC c 1 ⟨0, [], []⟩ (Buf.ofList [7])) (Buf.ofList [7]) 1 [] (fun _ => (7 : Int)) := fun c =>
    ⟨m1, by rw [plusC, e1, Res.ok_bind]; rfl, h1⟩
  exact ⟨⟨0, [], []⟩, Buf.ofList [7], rfl, rfl, hX, key c, key (-c), m2, by rw [cMinus, e2, Res.ok_bind]; rfl, h2⟩

example : (plusC 3 5 ⟨0, [2], [2]⟩ m0).bind (fun r => .ok ((List.range 7).map r.2)) =
    .ok [some 1, some 0, some 2, some 10, some 20, some 4, some 5] := by decide
example : (cMinus 3 5 ⟨0, [2], [2]⟩ m0).bind (fun r => .ok ((List.range 7).map r.2)) =
    .ok [some 1, some 0, some 2, some 10, some 20, some 2, some 1] := by decide
example : (minusC 3 5 ⟨0, [2], [2]⟩ m0).bind (fun r => .ok ((List.range 7).map r.2)) =
    .ok [some 1, some 0, some 2, some 10, some 20, some (-2), some (-1)] := by decide

/-! ## C198 -/

/-- `x-y` is refused if the numbers of elements differ.  Missing: shapes that differ with equally many elements, see
`C198_minus_fails`. -/
theorem C198_minus_partial [AddGroup α] (q : Nat) (x y : View) (hx : x.WF) (hd : x.dims.prod ≠ y.dims.prod)
    (hs : ∀ s ∈ rmStrides x.dims, s < intMax) (m : Buf α) (X : List Nat → α) (hX : Shows m x X) (hox : Outside q x.dims.prod x) :
    minus q x y m = .throw := by
  obtain ⟨m1, e1, -⟩ := copy_ok q x hx hs m X hX hox
  rw [minus, e1, Res.ok_bind]
  dsimp only
  rw [subtract, asize_eq, asize_eq, show (new q x.dims).dims = x.dims from rfl, decide_eq_false hd]; rfl

/-- The 2×3 matrix of zeroes minus a 3×2 matrix is not refused; elements of the second are read twice. -/
theorem C198_minus_fails : ∃ (x y : View) (m : Buf Int), x.WF ∧ y.WF ∧ x.dims = [2, 3] ∧ y.dims = [3, 2] ∧ x.Alloc m ∧ y.Alloc m ∧
    (minus 12 x y m).bind (fun r => .ok (r.1.dims, (List.range 6).map fun i => r.2 (12 + i))) =
      .ok ([2, 3], [some (-1), some (-2), some (-3), some (-3), some (-4), some (-5)]) := by
  refine ⟨⟨0, [2, 3], [3, 1]⟩, ⟨6, [3, 2], [2, 1]⟩, Buf.ofList [0, 0, 0, 0, 0, 0, 1, 2, 3, 4, 5, 6], rfl, rfl, rfl, rfl, by decide,
    by decide, by decide⟩

example : minus 5 ⟨0, [2], [2]⟩ ⟨3, [1], [1]⟩ m0 = .throw := by
  refine C198_minus_partial 5 ⟨0, [2], [2]⟩ _ rfl (by decide) (by decide) m0 (fun ix => if ix = [0] then 1 else 2)
    (shows_of (by decide)) (outside_of (by decide))

/-! ## C199 -/

/-- `x*y` and `mprod(x,y)` for two matrices that fit: a new matrix with the products of rows and columns. -/
theorem C199_mprod [NonUnitalNonAssocSemiring α] (q : Nat) (x y : View) (hx : x.WF) (hy : y.WF) {n k l : Nat} (dx : x.dims = [n, k])
    (dy : y.dims = [k, l]) (m : Buf α) (X Y : Nat → Nat → α) (hX : Shows m x fun ix => X (ix.getD 0 0) (ix.getD 1 0))
    (hY : Shows m y fun ix => Y (ix.getD 0 0) (ix.getD 1 0)) (hox : Outside q (n * l) x) (hoy : Outside q (n * l) y) :
    Gives (mprod q x y m) m q [n, l] fun ix => ((List.range k).map fun a => X (ix.getD 0 0) a * Y a (ix.getD 1 0)).sum := by
  have hp : [n, l].prod = n * l := by simp
  have h0 := made_zero (α := α) q [n, l] m
  have hd : mprodDims x.dims y.dims = .ok [n, l] := by rw [dx, dy]; rfl
  rw [mprod, hd, Res.ok_bind]
  by_cases he : 0 < asize [n, l]
  · have hx2 := made_shows h0 (by rw [hp]; exact hox) hX
    have hy2 := made_shows h0 (by rw [hp]; exact hoy) hY
    obtain ⟨m2, e2, hu⟩ := BG.viewMprod_ok (new q [n, l]) x y (new_WF q _) hx hy (n := n) (k := k) (l := l) rfl dx dy (new_distinct q _)
      (outside_apart (by rw [hp]; exact hox)) (outside_apart (by rw [hp]; exact hoy)) _ (fun _ _ => 0) X Y
      (fun i hi j hj => h0.1 [i, j] (by simp [InRange, hi, hj]))
      (fun i hi j hj => hx2 [i, j] (by rw [dx]; simp [InRange, hi, hj]))
      (fun i hi j hj => hy2 [i, j] (by rw [dy]; simp [InRange, hi, hj]))
    refine ⟨m2, ?_, made_upd h0 hu fun ix hix => ?_⟩
    · dsimp only
      rw [if_pos he, e2]; rfl
    · simp [BG.two]
  · refine ⟨_, by dsimp only; rw [if_neg he]; rfl, fun ix hix => ?_, h0.2⟩
    have := position_lt hix
    rw [asize_eq] at he
    omega

/-- Matrices that do not fit are refused, unless the result has no element. -/
theorem C199_mprod_refuses [NonUnitalNonAssocSemiring α] (q : Nat) (x y : View) {n k k' l : Nat} (dx : x.dims = [n, k])
    (dy : y.dims = [k', l]) (hk : k ≠ k') (hn : 0 < n) (hl : 0 < l) (m : Buf α) : mprod q x y m = .throw := by
  have hd : mprodDims x.dims y.dims = .ok [n, l] := by rw [dx, dy]; rfl
  rw [mprod, hd, Res.ok_bind]
  have he : 0 < asize [n, l] := by rw [asize_eq]; simp [hn, hl]
  dsimp only
  rw [if_pos he]
  simp only [BG.viewMprod, dx, dy, new, Res.get, List.getElem?_cons_zero, List.getElem?_cons_succ, Res.ok_bind, decide_true, Res.assrt_true,
    decide_eq_false hk]
  rfl

example : (mprod 6 ⟨0, [2, 2], [1, 2]⟩ ⟨4, [2, 1], [1, 1]⟩ (Buf.ofList [1, (2 : Int), 3, 4, 10, 100])).bind
    (fun r => .ok (r.1, r.2 6, r.2 7)) = .ok (⟨6, [2, 1], [1, 1]⟩, some 310, some 420) := by decide

/-! ## C200 -/

/-- A matrix times a vector: `add_mprod` reads past the end of the shapes. -/
theorem C200_ranks_fails [NonUnitalNonAssocSemiring α] (q : Nat) (x y : View) {n k : Nat} (dx : x.dims = [n, k]) (dy : y.dims = [k])
    (hn : 0 < n) (m : Buf α) : mprod q x y m = .ub := by
  have hd : mprodDims x.dims y.dims = .ok [n] := by rw [dx, dy]; rfl
  rw [mprod, hd, Res.ok_bind]
  have he : 0 < asize [n] := by rw [asize_eq]; simp [hn]
  dsimp only
  rw [if_pos he]
  rfl

/-- The product of two 1×1 matrices of `double`s: the lower half of the result is the product of the lower halves taken for `float`s, the
upper half is zero.  The lower halves of small whole numbers are zero, and so is their product. -/
theorem C200_double_fails (a b c d : Int) : ∃ (x y : View) (m : Buf Int), x.WF ∧ y.WF ∧ x.dims = [1, 1] ∧ y.dims = [1, 1] ∧
    (m (2 * x.cell [0, 0]) = some c ∧ m (2 * x.cell [0, 0] + 1) = some a) ∧
    (m (2 * y.cell [0, 0]) = some d ∧ m (2 * y.cell [0, 0] + 1) = some b) ∧
    ∃ r m', mprodD 2 x y m = .ok (r, m') ∧ r.dims = [1, 1] ∧ m' (2 * r.cell [0, 0]) = some (c * d) ∧ m' (2 * r.cell [0, 0] + 1) = some 0 := by
  refine ⟨⟨0, [1, 1], [1, 1]⟩, ⟨1, [1, 1], [1, 1]⟩, Buf.ofList [c, a, d, b], rfl, rfl, rfl, rfl, ⟨rfl, rfl⟩, ⟨rfl, rfl⟩, _, _, rfl, rfl, ?_, rfl⟩
  exact congrArg some (show (0 : Int) + (0 + c * d) = c * d by omega)

/-- Matrices of `double`s that do not fit are refused, unless the result has no element. -/
theorem C200_double_refuses_partial [Zero α] [Add α] [Mul α] (q : Nat) (x y : View) {n k k' l : Nat} (dx : x.dims = [n, k])
    (dy : y.dims = [k', l]) (hk : k ≠ k') (hn : 0 < n) (hl : 0 < l) (m : Buf α) : mprodD q x y m = .throw := by
  have hd : mprodDims x.dims y.dims = .ok [n, l] := by rw [dx, dy]; rfl
  rw [mprodD, hd, Res.ok_bind]
  have he : 0 < asize [n, l] := by rw [asize_eq]; simp [hn, hl]
  dsimp only
  rw [if_pos he]
  simp only [addMprodD, dx, dy, new, Res.get, List.getElem?_cons_zero, List.getElem?_cons_succ, Res.ok_bind, decide_true, Res.assrt_true,
    decide_eq_false hk]
  rfl

example : mprodD 20 ⟨0, [2, 3], [3, 1]⟩ ⟨6, [2, 2], [2, 1]⟩ (Buf.ofList [1, (2 : Int), 3, 4, 10, 100]) = .throw :=
  C200_double_refuses_partial 20 _ _ rfl rfl (by decide) (by decide) (by decide) _

/-- Two operands with fewer than two axes together are refused. -/
theorem C200_few_axes_partial [Zero α] [Add α] [Mul α] (q : Nat) (x y : View) (h : x.dims.length + y.dims.length < 2) (m : Buf α) :
    mprod q x y m = .throw ∧ mprodD q x y m = .throw := by
  have hd : mprodDims x.dims y.dims = .throw := by
    rw [mprodDims, decide_eq_false (by omega)]; rfl
  constructor
  · rw [mprod, hd]; rfl
  · rw [mprodD, hd]; rfl

example : mprod 3 ⟨0, [2], [1]⟩ ⟨2, [], []⟩ (Buf.ofList [1, (2 : Int), 3]) = .throw := (C200_few_axes_partial 3 _ _ (by decide) _).1

/-- Empty results of the two kinds are right, also for `double`. -/
theorem C200_double_partial [Zero α] [Add α] [Mul α] (q : Nat) (x y : View) {n k l : Nat} (dx : x.dims = [n, k])
    (dy : y.dims = [k, l]) (he : n = 0 ∨ l = 0) (m : Buf α) : ∃ m', mprodD q x y m = .ok (new q [n, l], m') ∧ m' = m := by
  have hd : mprodDims x.dims y.dims = .ok [n, l] := by rw [dx, dy]; rfl
  have h0 : asize [n, l] = 0 := by rw [asize_eq]; rcases he with h | h <;> simp [h]
  refine ⟨m, ?_, rfl⟩
  rw [mprodD, hd, Res.ok_bind]
  dsimp only
  rw [h0, if_neg (by omega), show allocZero m (2 * q) (2 * 0) = m by
    funext c; rw [allocZero, if_neg (by omega)]]
  rfl

/-! ## C201, C202 -/

/-- `kron(x,y)` for ranks 1 to 3: the Kronecker product. -/
theorem C201_kron [AddZeroClass α] [Mul α] (q : Nat) (x y : View) (hx : x.WF) (hy : y.WF) (hl : x.dims.length = y.dims.length)
    (h1 : 1 ≤ x.dims.length) (h3 : x.dims.length ≤ 3) (m : Buf α) (X Y : List Nat → α) (hX : Shows m x X) (hY : Shows m y Y)
    (hox : Outside q (List.zipWith (· * ·) x.dims y.dims).prod x) (hoy : Outside q (List.zipWith (· * ·) x.dims y.dims).prod y) :
    ∃ m', kron q x y m = .ok (new q (List.zipWith (· * ·) x.dims y.dims), m') ∧
      (∀ ix jx, InRange ix x.dims → InRange jx y.dims →
        (new q (List.zipWith (· * ·) x.dims y.dims)).val m' (kronIx y.dims ix jx) = some (X ix * Y jx)) ∧
      ∀ c, c < q ∨ q + (List.zipWith (· * ·) x.dims y.dims).prod ≤ c → m' c = m c := by
  have h0 := made_zero (α := α) q (List.zipWith (· * ·) x.dims y.dims) m
  obtain ⟨m', e, hv, hc⟩ := C22_tprod (new q (List.zipWith (· * ·) x.dims y.dims)) x y (new_WF q _) hx hy hl h1 h3 rfl (new_distinct q _)
    (outside_apart hox) (outside_apart hoy) _ (fun _ => 0) X Y h0.1 (made_shows h0 hox hX) (made_shows h0 hoy hY)
  refine ⟨m', ?_, fun ix jx hi hj => ?_, fun c hc' => ?_⟩
  · rw [kron, decide_eq_true hl, Res.assrt_true, Res.ok_bind]
    dsimp only
    rw [e]; rfl
  · rw [hv ix jx hi hj, zero_add]
  · rw [hc c fun kx hk => cell_ne hk hc', h0.2 c hc']

/-- Every element of the product is one of those. -/
theorem C201_kron_all (x y : View) (hl : x.dims.length = y.dims.length) (kx : List Nat)
    (hk : InRange kx (List.zipWith (· * ·) x.dims y.dims)) :
    ∃ ix jx, InRange ix x.dims ∧ InRange jx y.dims ∧ kronIx y.dims ix jx = kx :=
  (C22_kron_bijection x.dims y.dims hl).2.2 kx hk

/-- Different ranks are refused. -/
theorem C201_kron_refuses [Zero α] [Add α] [Mul α] (q : Nat) (x y : View) (hl : x.dims.length ≠ y.dims.length) (m : Buf α) :
    kron q x y m = .throw := by
  rw [kron, decide_eq_false hl]; rfl

/-- For rank 0 and ranks above 3 the product is zero throughout. -/
theorem C202_kron_fails [Zero α] [Add α] [Mul α] (q : Nat) (x y : View) (hl : x.dims.length = y.dims.length)
    (hr : x.dims.length = 0 ∨ 3 < x.dims.length) (m : Buf α) :
    Gives (kron q x y m) m q (List.zipWith (· * ·) x.dims y.dims) fun _ => 0 := by
  refine ⟨_, ?_, made_zero q _ m⟩
  rw [kron, decide_eq_true hl, Res.assrt_true, Res.ok_bind]
  dsimp only
  rw [(C22_tprod_other_ranks _ x y _).2 hl hr]; rfl

/-- These ranks are right only where the product is zero, for instance if one factor is.  Missing: the other cases, see
`C202_kron_fails`. -/
theorem C202_kron_partial [MulZeroClass α] [Add α] (q : Nat) (x y : View) (hl : x.dims.length = y.dims.length)
    (hr : x.dims.length = 0 ∨ 3 < x.dims.length) (m : Buf α) (X Y : List Nat → α)
    (hz : (∀ ix, InRange ix x.dims → X ix = 0) ∨ ∀ ix, InRange ix y.dims → Y ix = 0) :
    ∃ m', kron q x y m = .ok (new q (List.zipWith (· * ·) x.dims y.dims), m') ∧
      (∀ ix jx, InRange ix x.dims → InRange jx y.dims →
        (new q (List.zipWith (· * ·) x.dims y.dims)).val m' (kronIx y.dims ix jx) = some (X ix * Y jx)) ∧
      ∀ c, c < q ∨ q + (List.zipWith (· * ·) x.dims y.dims).prod ≤ c → m' c = m c := by
  obtain ⟨m', e, h1, h2⟩ := C202_kron_fails q x y hl hr m
  refine ⟨m', e, fun ix jx hi hj => ?_, h2⟩
  rw [h1 _ ((C22_kron_bijection x.dims y.dims hl).1 ix jx hi hj)]
  rcases hz with h | h
  · rw [h ix hi, zero_mul]
  · rw [h jx hj, mul_zero]

example : (kron 4 ⟨0, [2], [1]⟩ ⟨2, [2], [1]⟩ (Buf.ofList [1, (2 : Int), 10, 100])).bind
    (fun r => .ok (r.1, (List.range 4).map fun i => r.2 (4 + i))) =
    .ok (⟨4, [4], [1]⟩, [some 10, some 100, some 20, some 200]) := by decide
example : (kron 2 ⟨0, [], []⟩ ⟨1, [], []⟩ (Buf.ofList [3, (2 : Int)])).bind (fun r => .ok (r.2 2)) = .ok (some 0) := by decide

/-! ## C203 -/

/-- `oplus(x,y)` of equal positive rank: `x` and `y` as blocks along the diagonal, zeroes elsewhere. -/
theorem C203_oplus [Zero α] (q : Nat) (x y : View) (hx : x.WF) (hy : y.WF) (hl : x.dims.length = y.dims.length) (hne : x.dims ≠ [])
    (hs : ∀ s ∈ rmStrides (List.zipWith (· + ·) x.dims y.dims), s < intMax) (m : Buf α) (X Y : List Nat → α) (hX : Shows m x X)
    (hY : Shows m y Y) (hox : Outside q (List.zipWith (· + ·) x.dims y.dims).prod x)
    (hoy : Outside q (List.zipWith (· + ·) x.dims y.dims).prod y) :
    ∃ m', oplus q x y m = .ok (new q (List.zipWith (· + ·) x.dims y.dims), m') ∧
      (∀ ix, InRange ix x.dims → (new q (List.zipWith (· + ·) x.dims y.dims)).val m' ix = some (X ix)) ∧
      (∀ ix, InRange ix y.dims →
        (new q (List.zipWith (· + ·) x.dims y.dims)).val m' (List.zipWith (· + ·) x.dims ix) = some (Y ix)) ∧
      (∀ kx, InRange kx (List.zipWith (· + ·) x.dims y.dims) → ¬ InRange kx x.dims →
        (∀ ix, InRange ix y.dims → kx ≠ List.zipWith (· + ·) x.dims ix) →
        (new q (List.zipWith (· + ·) x.dims y.dims)).val m' kx = some 0) ∧
      ∀ c, c < q ∨ q + (List.zipWith (· + ·) x.dims y.dims).prod ≤ c → m' c = m c := by
  have hle : ∀ a b : List Nat, a.length = b.length → List.Forall₂ (· ≤ ·) a (List.zipWith (· + ·) a b) := by
    intro a
    induction a with
    | nil => intro b _; simp
    | cons a as ih =>
      intro b h
      match b, h with
      | b :: bs, h => simp only [List.zipWith_cons_cons]; exact .cons (by omega) (ih bs (by simpa using h))
  have hrefl : ∀ a : List Nat, List.Forall₂ (· ≤ ·) a a := by
    intro a; induction a with
    | nil => exact .nil
    | cons a as ih => exact .cons (Nat.le_refl a) ih
  generalize hD : List.zipWith (· + ·) x.dims y.dims = D at *
  have hDl : D.length = x.dims.length := by rw [← hD, List.length_zipWith]; omega
  have h0 := made_zero (α := α) q D m
  -- the two blocks
  obtain ⟨b1, e1, d1, r1w, r1⟩ := C13_block_dims_partial (new q D) x.dims (new_WF q D) (by
    have := hle x.dims y.dims hl; rw [hD] at this; exact this)
  obtain ⟨b2, e2, d2, r2w, r2⟩ := (C13_block (new q D) y.dims x.dims (new_WF q D)).1 ⟨hl.symm, by
    rw [show List.zipWith (· + ·) x.dims y.dims = D from hD]; exact hrefl D⟩
  have st1 : b1.strides = (new q D).strides := by
    unfold View.blockDims at e1
    cases hg : gvLe x.dims (new q D).dims with
    | false => rw [hg] at e1; cases e1
    | true => rw [hg] at e1; cases e1; rfl
  have st2 : b2.strides = (new q D).strides := by
    have hle' := (gixLe_iff (List.zipWith (· + ·) x.dims y.dims) (new q D).dims).2 (by rw [hD]; exact hrefl D)
    rw [View.block, decide_eq_true hl.symm, Res.assrt_true, Res.ok_bind, hle', Res.assrt_true, Res.ok_bind,
      offs_eq _ _ (by rw [show (new q D).strides = rmStrides D from rfl, rmStrides_length]; omega), Res.ok_bind] at e2
    cases e2; rfl
  have hne1 : ∀ i j, InRange i x.dims → InRange j y.dims → i ≠ List.zipWith (· + ·) x.dims j := by
    intro i j hi hj e
    match hxd : x.dims, hne with
    | a :: as, _ =>
      rw [hxd] at hi e
      match i, hi with
      | i :: is, hi =>
        have h1 := (inRange_cons.1 hi).1
        match j, e with
        | j :: js, e =>
          have : i = a + j := (List.cons.inj e).1
          omega
        | [], e => simp at e
  have dist1 : b1.Distinct := fun i j hi hj e => by
    obtain ⟨g1, g2⟩ := r1 i hi
    obtain ⟨g3, g4⟩ := r1 j hj
    rw [g2, g4] at e
    exact new_distinct q D _ _ g1 g3 e
  have zinj : ∀ (o i j : List Nat), i.length = o.length → j.length = o.length →
      List.zipWith (· + ·) o i = List.zipWith (· + ·) o j → i = j := by
    intro o
    induction o with
    | nil => intro i j hi hj _; rw [List.length_eq_zero_iff.1 hi, List.length_eq_zero_iff.1 hj]
    | cons o os ih =>
      intro i j hi hj e
      match i, j, hi, hj, e with
      | i :: is, j :: js, hi, hj, e =>
        have h1 := List.cons.inj e
        have h2 : o + i = o + j := h1.1
        rw [ih is js (by simpa using hi) (by simpa using hj) h1.2, show i = j by omega]
  have dist2 : b2.Distinct := fun i j hi hj e => by
    obtain ⟨g1, g2⟩ := r2 i hi
    obtain ⟨g3, g4⟩ := r2 j hj
    rw [g2, g4] at e
    have hi' := hi.length
    have hj' := hj.length
    rw [d2] at hi' hj'
    exact zinj x.dims i j (by omega) (by omega) (new_distinct q D _ _ g1 g3 e)
  have ap1 : b1.Apart x := fun i j hi hj e => by
    obtain ⟨g1, g2⟩ := r1 i hi
    exact outside_apart hox _ j g1 hj (by rw [← g2, e])
  have ap2 : b2.Apart y := fun i j hi hj e => by
    obtain ⟨g1, g2⟩ := r2 i hi
    exact outside_apart hoy _ j g1 hj (by rw [← g2, e])
  have hx1 := made_shows h0 hox hX
  have hy1 := made_shows h0 hoy hY
  obtain ⟨m1, f1, u1, u1'⟩ := assign_core b1 x r1w hx d1 (by rw [st1]; exact hs) (by rw [st1]; exact new_nonzero q D) dist1 ap1 _
    (fun i hi => by obtain ⟨g1, g2⟩ := r1 i hi; rw [g2]; exact made_alloc h0 _ g1) (shows_alloc hx1)
  have out1 : ∀ c, (c < q ∨ q + D.prod ≤ c) → m1 c = m c := fun c hc => by
    rw [u1' c fun i hi => by obtain ⟨g1, g2⟩ := r1 i hi; rw [g2]; exact cell_ne g1 hc, h0.2 c hc]
  have hy2 : Shows m1 y Y := fun j hj => by
    rw [View.val, out1 _ (hoy j hj)]; exact hY j hj
  have al1 : ∀ kx, InRange kx D → (m1 ((new q D).cell kx)).isSome := by
    intro kx hk
    by_cases h : InRange kx x.dims
    · have := u1 kx (by rw [d1]; exact h)
      obtain ⟨g1, g2⟩ := r1 kx (by rw [d1]; exact h)
      rw [show (new q D).cell kx = b1.cell kx from g2.symm, this, hx1 kx h]; rfl
    · rw [u1' _ fun i hi e => by
        obtain ⟨g1, g2⟩ := r1 i hi
        rw [g2] at e
        have := new_distinct q D _ _ hk g1 e
        subst this
        rw [d1] at hi
        exact h hi]
      exact made_alloc h0 kx hk
  obtain ⟨m2, f2, u2, u2'⟩ := assign_core b2 y r2w hy d2 (by rw [st2]; exact hs) (by rw [st2]; exact new_nonzero q D) dist2 ap2 m1
    (fun i hi => by obtain ⟨g1, g2⟩ := r2 i hi; rw [g2]; exact al1 _ g1) (shows_alloc hy2)
  refine ⟨m2, ?_, fun ix hix => ?_, fun ix hix => ?_, fun kx hk hk1 hk2 => ?_, fun c hc => ?_⟩
  · rw [oplus, decide_eq_true hl, Res.assrt_true, Res.ok_bind]
    dsimp only
    rw [hD, e1, Res.ok_bind, f1, Res.ok_bind, e2, Res.ok_bind, f2]
    rfl
  · obtain ⟨g1, g2⟩ := r1 ix (by rw [d1]; exact hix)
    rw [View.val, u2' _ fun j hj e => by
      obtain ⟨g3, g4⟩ := r2 j hj
      rw [g4] at e
      rw [d2] at hj
      exact hne1 ix j hix hj (new_distinct q D _ _ g1 g3 e)]
    rw [show (new q D).cell ix = b1.cell ix from g2.symm, u1 ix (by rw [d1]; exact hix), hx1 ix hix]
  · obtain ⟨g1, g2⟩ := r2 ix (by rw [d2]; exact hix)
    rw [View.val, ← g2, u2 ix (by rw [d2]; exact hix), hy2 ix hix]
  · rw [View.val, u2' _ fun j hj e => by
      obtain ⟨g3, g4⟩ := r2 j hj
      rw [g4] at e
      exact hk2 j (by rw [← d2]; exact hj) (new_distinct q D _ _ hk g3 e),
      u1' _ fun j hj e => by
        obtain ⟨g3, g4⟩ := r1 j hj
        rw [g4] at e
        have := new_distinct q D _ _ hk g3 e
        subst this
        rw [d1] at hj
        exact hk1 hj]
    exact h0.1 kx hk
  · rw [u2' c fun i hi => by obtain ⟨g1, g2⟩ := r2 i hi; rw [g2]; exact cell_ne g1 hc, out1 c hc]

/-- Different ranks are refused. -/
theorem C203_oplus_refuses [Zero α] (q : Nat) (x y : View) (hl : x.dims.length ≠ y.dims.length) (m : Buf α) :
    oplus q x y m = .throw := by
  rw [oplus, decide_eq_false hl]; rfl

example : (oplus 5 ⟨0, [1, 2], [2, 1]⟩ ⟨2, [1, 1], [1, 1]⟩ (Buf.ofList [1, (2 : Int), 3, 0, 0])).bind
    (fun r => .ok (r.1, (List.range 6).map fun i => r.2 (5 + i))) =
    .ok (⟨5, [2, 3], [3, 1]⟩, [some 1, some 2, some 0, some 0, some 0, some 3]) := by decide

/-! ## C204 -/

/-- `min(x)` when all elements are equal.  Missing: the other cases, see `C204_min_fails`. -/
theorem C204_min_partial [LinearOrder α] [Zero α] (x : View) (hx : x.WF) (hz : ∀ p ∈ x.dims.zip x.strides, p.2 = 0 → p.1 = 1)
    (hne : ∃ ix, InRange ix x.dims) (a : α) (m : Buf α) (hX : Shows m x fun _ => a) : min x m = .ok a := by
  obtain ⟨t, e, -, h⟩ := C19_max_partial x hx hz m (fun _ => a) hX
  obtain ⟨⟨ix, -, ht⟩, -⟩ := h hne
  rw [ht] at e
  exact e

/-- `max(x)` of a tensor that is not empty is attained and bounds every element.  Missing: broadcast views, as for `sum`. -/
theorem C19_max_function_partial [LinearOrder α] [Zero α] (x : View) (hx : x.WF) (hz : ∀ p ∈ x.dims.zip x.strides, p.2 = 0 → p.1 = 1)
    (hne : ∃ ix, InRange ix x.dims) (m : Buf α) (X : List Nat → α) (hX : Shows m x X) :
    ∃ t, max x m = .ok t ∧ (∃ ix, InRange ix x.dims ∧ t = X ix) ∧ ∀ ix, InRange ix x.dims → X ix ≤ t := by
  obtain ⟨t, e, -, h⟩ := C19_max_partial x hx hz m X hX
  exact ⟨t, e, h hne⟩

example : max ⟨0, [3], [1]⟩ (Buf.ofList [(1 : Int), 5, 2]) = .ok 5 := by decide

/-- The minimum of 1, 5, 2 is given as 5. -/
theorem C204_min_fails : ∃ (x : View) (m : Buf Int), x.WF ∧ x.dims = [3] ∧ x.val m [0] = some 1 ∧ x.val m [1] = some 5 ∧
    x.val m [2] = some 2 ∧ min x m = .ok 5 :=
  ⟨⟨0, [3], [1]⟩, Buf.ofList [1, 5, 2], rfl, rfl, rfl, rfl, rfl, by decide⟩

example : min ⟨0, [2], [1]⟩ (Buf.ofList [(4 : Int), 4]) = .ok 4 := by decide

/-! ## C205 -/

/-- `odot(x,y)` for rank at least one: a new tensor with the elementwise products.  Missing: rank 0, see `C205_odot_fails`. -/
theorem C205_odot_partial [Zero α] [Mul α] (q : Nat) (x y : View) (hx : x.WF) (hy : y.WF) (hd : x.dims = y.dims) (hne : x.dims ≠ [])
    (m : Buf α) (X Y : List Nat → α) (hX : Shows m x X) (hY : Shows m y Y) (hox : Outside q x.dims.prod x)
    (hoy : Outside q x.dims.prod y) : Gives (odot q x y m) m q x.dims fun ix => X ix * Y ix := by
  have h0 := made_zero (α := α) q x.dims m
  have hx1 := made_shows h0 hox hX
  have hy1 := made_shows h0 hoy hY
  obtain ⟨m', e, hv, hc⟩ := cells_run (allIndices x.dims) (fun ix => (new q x.dims).cell ix) (fun ix => X ix * Y ix)
    (fun m ix => do
      let u ← m.read (x.cell ix)
      let v ← m.read (y.cell ix)
      m.write ((new q x.dims).cell ix) (u * v)) (allocZero m q (asize x.dims)) (allIndices_nodup _)
    (fun i hi j hj e => new_distinct q x.dims i j (mem_allIndices.1 hi) (mem_allIndices.1 hj) e)
    (fun i hi => made_alloc h0 i (mem_allIndices.1 hi))
    (fun i hi m1 hm1 => by
      have hi' := mem_allIndices.1 hi
      have a1 : m1 (x.cell i) = some (X i) := by
        rw [hm1 _ fun j hj _ => cell_ne (mem_allIndices.1 hj) (hox i hi')]; exact hx1 i hi'
      have a2 : m1 (y.cell i) = some (Y i) := by
        rw [hm1 _ fun j hj _ => cell_ne (mem_allIndices.1 hj) (hoy i (by rw [← hd]; exact hi'))]; exact hy1 i (by rw [← hd]; exact hi')
      simp only [Buf.read, a1, a2, Res.ok_bind])
  refine ⟨m', ?_, fun ix hix => hv ix (mem_allIndices.2 hix), fun c hc' => ?_⟩
  · unfold odot
    show (zip3 x y (new q x.dims) _ _ >>= fun m => Res.ok (new q x.dims, m)) = _
    rw [zip3_eq x y (new q x.dims) hx hy (new_WF q _) hd rfl hne, e]
    rfl
  · rw [hc c fun i hi => cell_ne (mem_allIndices.1 hi) hc', h0.2 c hc']

/-- Different shapes are refused. -/
theorem C205_odot_refuses [Zero α] [Mul α] (q : Nat) (x y : View) (hd : x.dims ≠ y.dims) (m : Buf α) : odot q x y m = .throw := by
  simp only [odot, zip3, decide_eq_false hd]; rfl

/-- For rank 0 the product is zero. -/
theorem C205_odot_fails : ∃ (x y : View) (m : Buf Int), x.WF ∧ y.WF ∧ x.dims = [] ∧ y.dims = [] ∧ x.val m [] = some 3 ∧
    y.val m [] = some 2 ∧ (odot 2 x y m).bind (fun r => .ok (r.1.dims, r.1.val r.2 [])) = .ok ([], some 0) :=
  ⟨⟨0, [], []⟩, ⟨1, [], []⟩, Buf.ofList [3, 2], rfl, rfl, rfl, rfl, rfl, rfl, by decide⟩

example : (odot 5 ⟨0, [2], [2]⟩ ⟨3, [2], [1]⟩ m0).bind (fun r => .ok (r.1, (List.range 7).map r.2)) =
    .ok (⟨5, [2], [1]⟩, [some 1, some 0, some 2, some 10, some 20, some 10, some 40]) := by decide

/-! ## C206 -/

/-- `x.sum(d)`: a new tensor with the sums along axis `d`. -/
theorem C206_sum [AddCommMonoid α] (d q : Nat) (x : View) (hx : x.WF) (hd : d < x.dims.length)
    (hs : ∀ s ∈ rmStrides (x.dims.eraseIdx d), s < intMax) (m : Buf α) (X : List Nat → α) (hX : Shows m x X)
    (hox : Outside q (x.dims.eraseIdx d).prod x) :
    Gives (sumAxis d q x m) m q (x.dims.eraseIdx d) fun ix => ((List.range x.dims[d]).map fun i => X (ix.take d ++ i :: ix.drop d)).sum := by
  have h0 := made_zero (α := α) q (x.dims.eraseIdx d) m
  obtain ⟨m', e, hu⟩ := C81_add_sum_partial (new q (x.dims.eraseIdx d)) x d (new_WF q _) hx hd rfl hs (new_nonzero q _) (new_distinct q _)
    (outside_apart hox) _ (fun _ => 0) X h0.1 (made_shows h0 hox hX)
  refine ⟨m', ?_, made_upd h0 hu fun ix hix => by rw [zero_add]⟩
  have hr : gvRemove x.dims d = .ok (x.dims.eraseIdx d) := by simp [gvRemove, hd, List.eraseIdx_eq_take_drop_succ]
  rw [sumAxis, hr, Res.ok_bind]
  dsimp only
  rw [e]; rfl

example : (sumAxis 1 6 ⟨0, [2, 3], [3, 1]⟩ (Buf.ofList [1, (2 : Int), 3, 10, 20, 30])).bind (fun r => .ok (r.1, r.2 6, r.2 7)) =
    .ok (⟨6, [2], [1]⟩, some 6, some 60) := by decide

/-! ## C207 -/

open PoolSpec in
/-- `to_array_pool(M)` of a row-major matrix: one list per row. -/
theorem C207_pool (M : View) {n k : Nat} (hd : M.dims = [n, k]) (hs : M.strides = rmStrides [n, k]) (m : Buf α) (X : Nat → Nat → α)
    (hX : Shows m M fun ix => X (ix.getD 0 0) (ix.getD 1 0)) :
    ∃ p, toArrayPool M m = .ok p ∧ p.Reads ((List.range n).map fun i => Row.full ((List.range k).map fun j => X i j)) := by
  obtain ⟨p, e1, h⟩ := Pool.ofShape_ok (α := α) n k
  have hmem : p.memsize = (n * k : Nat) ∧ p.arr = Arr.alloc ((n : Int) * k) := by
    unfold Pool.ofShape at e1
    obtain ⟨d, -, e2⟩ := Res.bind_eq_ok.1 e1
    cases e2
    exact ⟨by simp, rfl⟩
  have hcell : ∀ i, i < n → ∀ j, j < k → M.cell [i, j] = M.off + (i * k + j) := by
    intro i hi j hj
    rw [View.cell, hs, dot_rmStrides [n, k] [i, j] rfl]
    simp [position]
  have hread := readBlock_ok m (n * k) M.off (fun c => X (c / k) (c % k)) (by
    intro c hc
    have hk : 0 < k := by rcases Nat.eq_zero_or_pos k with h | h; · subst h; simp at hc
                          · exact h
    have h1 : c / k < n := Nat.div_lt_of_lt_mul (by rw [Nat.mul_comm]; exact hc)
    have h2 := Nat.mod_lt c hk
    have h3 := hX [c / k, c % k] (by rw [hd]; simp [InRange, h1, h2])
    rw [View.val, hcell _ h1 _ h2, Nat.mul_comm, Nat.div_add_mod] at h3
    exact h3)
  obtain ⟨b, eb, lb, hb⟩ := Arr.wrList_ok ((List.range (n * k)).map fun c => X (c / k) (c % k)) p.arr 0 (by
    rw [hmem.2, Arr.length_alloc]; simp only [List.length_map, List.length_range]; norm_cast; omega)
  have hrow : ∀ i r, ((List.range n).map fun i => Row.full ((List.range k).map fun j => X i j))[i]? = some r →
      i < n ∧ r = Row.full ((List.range k).map fun j => X i j) := by
    intro i r h
    rw [List.getElem?_map] at h
    obtain ⟨a, h1, h2⟩ := Option.map_eq_some_iff.1 h
    obtain ⟨h3, h4⟩ := List.getElem?_eq_some_iff.1 h1
    simp only [List.length_range] at h3
    simp only [List.getElem_range] at h4
    subst h4
    exact ⟨h3, h2.symm⟩
  have hold : ∀ i, i < n → (List.replicate n (⟨k, List.replicate k none⟩ : Row α))[i]? = some ⟨k, List.replicate k none⟩ :=
    fun i hi => by rw [List.getElem?_replicate, if_pos hi]
  have hoff : ∀ i, i ≤ n → off ((List.range n).map fun i => Row.full ((List.range k).map fun j => X i j)) i = i * k := by
    intro i hi
    unfold off
    rw [← List.map_take, List.map_map, show (Row.room ∘ fun i => Row.full ((List.range k).map fun j => X i j)) = fun _ => k from by
      funext i; simp [Row.full], List.map_const', List.length_take, List.length_range, List.sum_replicate_nat, Nat.min_eq_left hi]
  have hoff' : ∀ i, i ≤ n → off (List.replicate n (⟨k, List.replicate k none⟩ : Row α)) i = i * k := fun i hi => Pool.off_replicate n k i _ hi
  have hH : ({ p with arr := b } : Pool α).Holds ((List.range n).map fun i => Row.full ((List.range k).map fun j => X i j)) := by
    have hdir := h.dir
    have htail := h.tail
    rw [List.length_replicate] at hdir htail
    rw [hoff' n (Nat.le_refl _)] at htail
    refine ⟨by simpa using hdir, Nat.le_refl _, ?_, h.mem, ?_, ?_, ?_, ?_, ?_⟩
    · simp only [List.length_map, List.length_range]
      rw [hoff n (Nat.le_refl _)]; exact htail
    · rw [lb]; exact h.arr
    · intro r hr
      obtain ⟨i, -, rfl⟩ := List.mem_map.1 hr
      simp [Row.full]
    · intro i r hi
      obtain ⟨h1, -⟩ := hrow i r hi
      have := h.dir0 i _ (hold i h1)
      rw [hoff' i (by omega)] at this
      rw [hoff i (by omega)]; exact this
    · intro i r hi
      obtain ⟨h1, rfl⟩ := hrow i r hi
      have := h.dir1 i _ (hold i h1)
      simpa [Row.full] using this
    · intro i r j v hi hv
      obtain ⟨h1, rfl⟩ := hrow i r hi
      simp only [Row.full] at hv
      have hj : j < k := by
        have := (List.getElem?_eq_some_iff.1 hv).1
        simpa using this
      have hv' : X i j = v := by simpa [hj] using hv
      rw [hoff i (by omega)]
      have hlt : i * k + j < n * k := by
        calc i * k + j < i * k + k := by omega
          _ = (i + 1) * k := by rw [Nat.add_mul, Nat.one_mul]
          _ ≤ n * k := Nat.mul_le_mul_right k h1
      have hk : 0 < k := by omega
      rw [hb, if_pos ⟨by omega, by simpa using hlt⟩]
      simp only [Nat.sub_zero, List.getElem?_map, List.getElem?_range hlt, Option.map_some]
      rw [Nat.mul_comm, Nat.mul_add_div hk, Nat.div_eq_of_lt hj, Nat.mul_add_mod, Nat.mod_eq_of_lt hj, Nat.add_zero, hv']
  refine ⟨{ p with arr := b }, ?_, hH.reads⟩
  have hreg : isRegular M.strides M.dims = .ok true := (isRegular_iff _ _).2 (by rw [hd]; exact hs)
  rw [toArrayPool, hd] at *
  rw [hreg]
  simp only [List.length_cons, List.length_nil, decide_true, Res.assrt_true, Res.ok_bind, Res.get, List.getElem?_cons_zero,
    List.getElem?_cons_succ, e1, hmem.1, Int.toNat_natCast, hread]
  rw [show p.arr.wrList 0 _ = .ok b from eb]
  rfl

/-- Anything but a row-major matrix is refused. -/
theorem C207_pool_refuses (M : View) (hw : M.WF) (h : M.dims.length ≠ 2 ∨ M.strides ≠ rmStrides M.dims) (m : Buf α) :
    toArrayPool M m = .throw := by
  unfold toArrayPool
  by_cases h2 : M.dims.length = 2
  · rw [decide_eq_true h2, Res.assrt_true, Res.ok_bind]
    obtain ⟨b, hb⟩ := isRegular_ok M hw
    cases b with
    | true => exact absurd ((isRegular_iff _ _).1 hb) (by rcases h with h | h; · exact absurd h2 h
                                                          · exact h)
    | false => rw [hb]; rfl
  · rw [decide_eq_false h2]; rfl

example : (toArrayPool ⟨1, [2, 2], [2, 1]⟩ (Buf.ofList [0, (5 : Int), 6, 7, 8])).bind (fun p => do
    let a ← p.list 0
    let b ← p.list 1
    .ok (p.size, a, b)) = .ok (2, [5, 6], [7, 8]) := by decide

/-! ## C208 -/

/-- `Identity(n)`: ones on the diagonal, zeroes elsewhere. -/
theorem C208_identity [Zero α] [One α] (q n : Nat) (m : Buf α) :
    Gives (identity q n m) m q [n, n] fun ix => if ix.getD 0 0 = ix.getD 1 0 then 1 else 0 := View.C153_identity q n m

/-- `UnitVec(n,i)`: a one at position `i`, zeroes elsewhere. -/
theorem C208_unit [Zero α] [One α] (q n i : Nat) (hi : i < n) (m : Buf α) :
    Gives (unitVec q n i m) m q [n] fun ix => if ix = [i] then 1 else 0 := View.C153_unit q n i hi m

/-- `Identity(n)*x` has the entries of `x`. -/
theorem C208_identity_times [NonAssocSemiring α] (q q' n l : Nat) (x : View) (hx : x.WF) (dx : x.dims = [n, l]) (m : Buf α)
    (X : Nat → Nat → α) (hX : Shows m x fun ix => X (ix.getD 0 0) (ix.getD 1 0)) (ho : Outside q (n * n) x) (ho' : Outside q' (n * l) x)
    (hq : q + n * n ≤ q' ∨ q' + n * l ≤ q) :
    ∃ I m1 m2, identity q n m = .ok (I, m1) ∧ mprod q' I x m1 = .ok (new q' [n, l], m2) ∧
      Shows m2 (new q' [n, l]) fun ix => X (ix.getD 0 0) (ix.getD 1 0) := by
  obtain ⟨m1, e1, h1⟩ := C208_identity (α := α) q n m
  have hx1 := made_shows h1 (by simpa using ho) hX
  obtain ⟨m2, e2, h2⟩ := C199_mprod q' (new q [n, n]) x (new_WF q _) hx rfl dx m1 (fun i j => if i = j then 1 else 0) X h1.1 hx1
    (fun ix hix => by
      have hix : InRange ix [n, n] := hix
      have := position_lt hix
      rw [new_cell q hix]
      simp at this
      omega) ho'
  refine ⟨_, m1, m2, e1, e2, fun ix hix => ?_⟩
  rw [h2.1 ix hix]
  congr 1
  have hi : ix.getD 0 0 < n := by
    match ix, hix with
    | i :: is, hix => exact (inRange_cons.1 hix).1
  show ((List.range n).map fun a => (if ix.getD 0 0 = a then 1 else 0) * X a (ix.getD 1 0)).sum = X (ix.getD 0 0) (ix.getD 1 0)
  generalize ix.getD 0 0 = i at *
  clear e1 e2 h1 h2 hX hx1 ho ho' hq dx hix
  induction n with
  | zero => omega
  | succ n ih =>
    rw [List.range_succ, List.map_append, List.sum_append, List.map_singleton, List.sum_singleton]
    by_cases h : i = n
    · subst h
      have hz : ((List.range i).map fun a => (if i = a then 1 else 0) * X a (ix.getD 1 0)).sum = 0 := by
        refine List.sum_eq_zero fun t ht => ?_
        obtain ⟨a, ha, rfl⟩ := List.mem_map.1 ht
        rw [if_neg (by have := List.mem_range.1 ha; omega), zero_mul]
      rw [hz]
      simp
    · rw [ih (by omega), if_neg h, zero_mul, add_zero]

example : (identity 0 2 (Buf.ofList ([] : List Int))).bind (fun r => .ok ((List.range 5).map r.2)) =
    .ok [some 1, some 0, some 0, some 1, none] := by decide

end TFun
end Cnine
