import Verif.Model.CublasA
import Verif.Props.Cublas2
import Verif.Props.RtensorAProd

/-!
# Properties C469–C474: the old backend on the GPU
-/

namespace Cnine

namespace RA

variable {α : Type}

theorem apart_blocks {r x : RA} (h : r.Apart x) (hs : r.asize = x.asize) : r.asize = 0 ∨ x.arr + r.asize ≤ r.arr ∨ r.arr + r.asize ≤ x.arr := by
  by_contra hc
  rw [not_or, not_or] at hc
  obtain ⟨h0, h1, h2⟩ := hc
  refine h (max r.arr x.arr) ⟨Nat.le_max_left .., ?_⟩ ⟨Nat.le_max_right .., ?_⟩ <;> omega

/-- `axpy` on two arrays is the loop of the CPU. -/
theorem saxpy_zip [Add α] [Mul α] {r x : RA} (hs : r.asize = x.asize) (ha : r.Apart x ∨ r.arr = x.arr) (c : α) (m : Buf α) :
    saxpy r.asize c x.arr 1 r.arr 1 m = zipT (fun a b => a + c * b) r x m := by
  have hf : AxpyFine r.asize x.arr 1 r.arr 1 := by
    rcases ha with ha | ha
    · rcases apart_blocks ha hs with h | h
      · rw [h]; intro i hi; omega
      · exact axpyFine_one (.inr h)
    · exact axpyFine_one (.inl ha.symm)
  rw [zipT, decide_eq_true hs, Res.assrt_true, Res.ok_bind, saxpy, if_pos hf]
  unfold loop
  apply forM_congr
  intro i _ m
  dsimp only
  rw [Nat.mul_one]
  unfold incCell updCell Buf.read
  cases m (x.arr + i) <;> cases m (r.arr + i) <;> rfl

/-! ### C469: sums -/

theorem C469_scaled [Add α] [Mul α] {r x : RA} {D : List Nat} {f g : List Nat → α} {m : Buf α} (hr : r.Is D f m) (hx : x.Is D g m)
    (ha : r.Apart x ∨ r.arr = x.arr) (c : α) : ∃ m', r.gAddScaled x c m = .ok m' ∧ r.Becomes D (fun ix => f ix + c * g ix) m m' := by
  have hs : r.asize = x.asize := by rw [hr.asize, hx.asize]
  rw [gAddScaled, decide_eq_true hs, Res.assrt_true, Res.ok_bind, saxpy_zip hs ha]
  exact zip_same _ hr hx ha

theorem C469_add [NonAssocSemiring α] {r x : RA} {D : List Nat} {f g : List Nat → α} {m : Buf α} (hr : r.Is D f m) (hx : x.Is D g m)
    (ha : r.Apart x ∨ r.arr = x.arr) : ∃ m', r.gAddScaled x 1 m = .ok m' ∧ r.Becomes D (fun ix => f ix + g ix) m m' := by
  have := C469_scaled hr hx ha 1
  simp only [one_mul] at this
  exact this

theorem C469_subtract [Ring α] {r x : RA} {D : List Nat} {f g : List Nat → α} {m : Buf α} (hr : r.Is D f m) (hx : x.Is D g m)
    (ha : r.Apart x ∨ r.arr = x.arr) : ∃ m', r.gSubtract x m = .ok m' ∧ r.Becomes D (fun ix => f ix - g ix) m m' := by
  have := C469_scaled hr hx ha (-1)
  simp only [neg_mul, one_mul, ← sub_eq_add_neg] at this
  exact this

/-- Other totals are refused. -/
theorem C469_refuses [Ring α] {r x : RA} (h : r.asize ≠ x.asize) (c : α) (m : Buf α) : r.gAddScaled x c m = .throw ∧ r.gSubtract x m = .throw := by
  simp only [gSubtract, gAddScaled, decide_eq_false h, Res.assrt_false]
  exact ⟨rfl, rfl⟩

theorem C469_sum [NonAssocSemiring α] {r : RA} {D : List Nat} {f : List Nat → α} {m : Buf α} (hr : r.Is D f m) (v : List (RA × (List Nat → α)))
    (hv : ∀ p ∈ v, p.1.Is D p.2 m ∧ r.Apart p.1) :
    ∃ m', r.gAddSum (v.map Prod.fst) m = .ok m' ∧ r.Becomes D (fun ix => f ix + (v.map fun p => p.2 ix).sum) m m' := by
  induction v generalizing f m with
  | nil => exact ⟨m, rfl, becomes_congr ⟨hr, fun _ _ => rfl⟩ fun ix _ => by simp⟩
  | cons p v ih =>
    obtain ⟨hp, hap⟩ := hv p List.mem_cons_self
    have hs : r.asize = p.1.asize := by rw [hr.asize, hp.asize]
    obtain ⟨m1, h1, h2⟩ := C469_add hr hp (.inl hap)
    obtain ⟨m2, h3, h4⟩ := ih h2.1 fun z hz => by
      obtain ⟨a, b⟩ := hv z (List.mem_cons_of_mem _ hz)
      exact ⟨a.keep fun c hc => h2.2 c fun ho => b c ho hc, b⟩
    refine ⟨m2, ?_, becomes_congr ⟨h4.1, fun c hc => (h4.2 c hc).trans (h2.2 c hc)⟩ fun ix _ => by simp [add_assoc]⟩
    rw [gAddSum, List.map_cons, Res.forM_cons]
    rw [gAddScaled, decide_eq_true hs, Res.assrt_true, Res.ok_bind] at h1
    rw [decide_eq_true hs.symm, Res.assrt_true, Res.ok_bind, h1, Res.ok_bind]
    exact h3

/-- The two additions of `add_plus` (`c` is 1) and `add_minus` (`c` is -1), when the second operand is not the result. -/
theorem C469_two [NonAssocSemiring α] (c : α) {r x y : RA} {D : List Nat} {f g h : List Nat → α} {m : Buf α} (hr : r.Is D f m) (hx : x.Is D g m) (hy : y.Is D h m)
    (ha : r.Apart x ∨ r.arr = x.arr) (hb : r.Apart y) :
    ∃ m', gAddTwo c r x y m = .ok m' ∧ r.Becomes D (fun ix => f ix + (g ix + c * h ix)) m m' := by
  have hs : r.asize = x.asize := by rw [hr.asize, hx.asize]
  have ht : r.asize = y.asize := by rw [hr.asize, hy.asize]
  obtain ⟨m1, h1, h2⟩ := C469_add hr hx ha
  have hy' : y.Is D h m1 := hy.keep fun d hd => h2.2 d fun ho => hb d ho hd
  obtain ⟨m2, h3, h4⟩ := C469_scaled h2.1 hy' (.inl hb) c
  refine ⟨m2, ?_, becomes_congr ⟨h4.1, fun d hd => (h4.2 d hd).trans (h2.2 d hd)⟩ fun ix _ => add_assoc ..⟩
  rw [gAddScaled, decide_eq_true hs, Res.assrt_true, Res.ok_bind] at h1
  rw [gAddScaled, decide_eq_true ht, Res.assrt_true, Res.ok_bind] at h3
  rw [gAddTwo, decide_eq_true hs, Res.assrt_true, Res.ok_bind, decide_eq_true ht, Res.assrt_true, Res.ok_bind, h1, Res.ok_bind, h3]

/-- The tensors of the examples, 2×2 each. -/
def gxa (q : Nat) : RA := ⟨q, [2, 2], [2, 1], 4, 32, 32, -1, false⟩

theorem gxa_is (q : Nat) : (gxa q).Is [2, 2] (fun ix => ((q + position [2, 2] ix : Nat) : Int)) (fun c => some (c : Int)) :=
  ⟨by simp, rfl, rfl, rfl, (by decide : 4 ≤ 32), fun _ _ => rfl⟩

theorem gxa_apart {p q : Nat} (h : p + 4 ≤ q) : (gxa p).Apart (gxa q) := by
  rintro c ⟨_, h1⟩ ⟨h2, _⟩
  simp only [gxa] at h1 h2
  omega

example : ∃ m', (gxa 0).gSubtract (gxa 4) (fun c => some (c : Int)) = .ok m' ∧ (gxa 0).Becomes [2, 2] (fun ix =>
    ((0 + position [2, 2] ix : Nat) : Int) - ((4 + position [2, 2] ix : Nat) : Int)) (fun c => some (c : Int)) m' :=
  C469_subtract (gxa_is 0) (gxa_is 4) (.inl (gxa_apart (by decide)))

/-! ### C470: a difference with the result itself -/

/-- `r.add_minus(x,r)` must leave `x` in `r`, as on the CPU; on the GPU it leaves zeros. -/
theorem C470_own_fails :
    ∃ m' m'', (gxa 0).addMinus (gxa 4) (gxa 0) (fun c => some (c : Int)) = .ok m' ∧ gAddTwo (-1) (gxa 0) (gxa 4) (gxa 0) (fun c => some (c : Int)) = .ok m'' ∧
      (gxa 0).Becomes [2, 2] (fun ix => ((4 + position [2, 2] ix : Nat) : Int)) (fun c => some (c : Int)) m' ∧ m'' 3 = some 0 ∧ m' 3 = some 7 := by
  obtain ⟨m', h1, h2⟩ := C370_addMinus (gxa_is 0) (gxa_is 4) (gxa_is 0) (.inl (gxa_apart (by decide))) (.inr rfl)
  have h3 := becomes_congr h2 (g := fun ix => ((4 + position [2, 2] ix : Nat) : Int)) fun ix _ => by push_cast; ring
  refine ⟨m', _, h1, rfl, h3, rfl, h3.1.has [1, 1] (by simp [InRange])⟩

/-! ### C471: scaling -/

/-- `inplace_times(c)` on the GPU adds `c` times the entry to the entry. -/
theorem C471_twice_fails [Add α] [Mul α] {x : RA} {D : List Nat} {f : List Nat → α} {m : Buf α} (h : x.Is D f m) (c : α) :
    ∃ m', x.gInplaceTimes c m = .ok m' ∧ x.Becomes D (fun ix => f ix + c * f ix) m m' := by
  rw [gInplaceTimes, saxpy_zip rfl (.inr rfl)]
  exact zip_same _ h h (.inr rfl)

/-- Twice the tensor is asked for, three times it is given. -/
theorem C471_times_fails :
    ∃ m' m'', (gxa 0).inplaceTimes 2 (fun c => some (c : Int)) = .ok m' ∧ (gxa 0).gInplaceTimes 2 (fun c => some (c : Int)) = .ok m'' ∧ m' 3 = some 6 ∧ m'' 3 = some 9 :=
  ⟨_, _, rfl, rfl, rfl, rfl⟩

/-! ### C472: numbers -/

theorem C472_norm2 [NonUnitalNonAssocSemiring α] {x : RA} {D : List Nat} {f : List Nat → α} {m : Buf α} (h : x.Is D f m) :
    x.gNorm2 m = .ok ((allIndices D).map fun ix => f ix * f ix).sum := by
  rw [gNorm2, cublasDot]
  exact sum_of h.asize _ _ fun ix hi t => by rw [read_ok (h.has ix hi), Res.ok_bind, Res.ok_bind]

theorem C472_inp [NonUnitalNonAssocSemiring α] {r x : RA} {D : List Nat} {f g : List Nat → α} {m : Buf α} (hr : r.Is D f m) (hx : x.Is D g m) :
    r.gInp x m = .ok ((allIndices D).map fun ix => f ix * g ix).sum := C371_inp hr hx

theorem C472_refuses [Zero α] [Add α] [Mul α] {r x : RA} (h : r.asize ≠ x.asize) (m : Buf α) : r.gInp x m = .throw := by
  rw [gInp, decide_eq_false h, Res.assrt_false]; rfl

example : (gxa 0).gInp (gxa 4) (fun c => some (c : Int)) = .ok 38 := rfl

/-! ### C473: products -/

theorem rows_pos {a I J : Nat} (hJ : 0 < J) : (⟨a, I, J, J, 1⟩ : RV2).Rows := ⟨rfl, Nat.le_refl _, hJ⟩

theorem rv_cell (a I J i j : Nat) : RV2.cell ⟨a, I, J, J, 1⟩ i j = a + (i * J + j) := by
  rw [RV2.cell]; dsimp only; ring

theorem rv_has {x : RA} {A B : List Nat} {g : List Nat → α} {m : Buf α} (hx : x.Is (A ++ B) g m) :
    (⟨x.arr, A.prod, B.prod, B.prod, 1⟩ : RV2).Has m fun i j => g (nth A i ++ nth B j) := by
  intro i hi j hj
  rw [rv_cell]
  exact pair_at hx hi hj

theorem rv_apart {r x : RA} {A B C E : List Nat} {f g : List Nat → α} {m : Buf α} (hr : r.Is (A ++ B) f m) (hx : x.Is (C ++ E) g m) (ha : r.Apart x) :
    (⟨r.arr, A.prod, B.prod, B.prod, 1⟩ : RV2).Apart ⟨x.arr, C.prod, E.prod, E.prod, 1⟩ := by
  intro i hi j hj k hk l hl e
  rw [rv_cell, rv_cell] at e
  exact ha _ (own_pair hr hi hj) (e ▸ own_pair hx hk hl)

/-- Two outcomes with the same entries and the same rest are the same memory. -/
theorem becomes_unique {r : RV2} {m m1 m2 : Buf α} {X : Nat → Nat → α} (h1 : r.Becomes m m1 X) (h2 : r.Becomes m m2 X) : m1 = m2 := by
  funext c
  by_cases h : ∃ i, i < r.n0 ∧ ∃ j, j < r.n1 ∧ c = r.cell i j
  · obtain ⟨i, hi, j, hj, rfl⟩ := h
    rw [h1.1 i hi j hj, h2.1 i hi j hj]
  · have h' : ∀ i, i < r.n0 → ∀ j, j < r.n1 → c ≠ r.cell i j := fun i hi j hj e => h ⟨i, hi, j, hj, e⟩
    rw [h1.2 c h', h2.2 c h']

/-- The loops of the CPU as a product of matrices. -/
theorem mprodLoop_eq [Zero α] [Add α] [Mul α] (r : RA) (I J K : Nat) (p q p' q' : Nat → Nat → Nat) (m : Buf α) (hp : ∀ i k, p i k = p' i k)
    (hq : ∀ k j, q k j = q' k j) :
    mprodLoop r I J K p q m = loop I m fun a m => loop J m (fun b m => do
      let t ← RV2.dotLoop K (fun i => p' a i) (fun i => q' i b) m
      incCell m (RV2.cell ⟨r.arr, I, J, J, 1⟩ a b) t) := by
  obtain rfl : p = p' := funext fun _ => funext fun _ => hp _ _
  obtain rfl : q = q' := funext fun _ => funext fun _ => hq _ _
  simp only [rv_cell]
  rfl

theorem prod_ne {A B : List Nat} (h : (A ++ B).prod ≠ 0) : 0 < A.prod ∧ 0 < B.prod := by
  rw [List.prod_append] at h
  exact ⟨Nat.pos_of_ne_zero fun e => h (by rw [e, Nat.zero_mul]), Nat.pos_of_ne_zero fun e => h (by rw [e, Nat.mul_zero])⟩

/-- `add_Mprod_AA` on the GPU leaves the memory the CPU leaves. -/
theorem C473_AA_same [CommSemiring α] {r x y : RA} {A B C : List Nat} {f g h : List Nat → α} {m : Buf α} (hr : r.Is (A ++ B) f m) (hx : x.Is (A ++ C) g m)
    (hy : y.Is (C ++ B) h m) (hax : r.Apart x) (hay : r.Apart y) : gMprodAA r x y C.length C.length m = addMprodAA r x y C.length C.length m := by
  rw [gMprodAA, addMprodAA, hx.asize, hy.asize]
  split
  · rfl
  next e =>
  rw [not_or] at e
  obtain ⟨pA, pC⟩ := prod_ne e.1
  obtain ⟨-, pB⟩ := prod_ne e.2
  have hl : x.dims.length - C.length = A.length := by rw [hx.dims]; simp
  simp only [hl, combined_back hx e.1, combined_front hy e.2, combined_front hx e.1, combined_back hy e.2, Res.ok_bind, decide_true, Res.assrt_true]
  congr 1; funext _
  congr 1; funext _
  split
  · rfl
  rw [mprodLoop_eq r _ _ _ _ _ (RV2.cell ⟨x.arr, A.prod, C.prod, C.prod, 1⟩) (RV2.cell ⟨y.arr, C.prod, B.prod, B.prod, 1⟩) m
    (fun i k => (rv_cell ..).symm) (fun i k => (rv_cell ..).symm)]
  obtain ⟨m1, a1, a2⟩ := C454_AA ⟨r.arr, A.prod, B.prod, B.prod, 1⟩ ⟨x.arr, A.prod, C.prod, C.prod, 1⟩ ⟨y.arr, C.prod, B.prod, B.prod, 1⟩ (rows_pos pB) (rows_pos pC)
    (rows_pos pB) rfl rfl rfl (rv_apart hr hx hax) (rv_apart hr hy hay) m _ _ _ (rv_has hr) (rv_has hx) (rv_has hy)
  obtain ⟨m2, b1, b2⟩ := C134_AA ⟨r.arr, A.prod, B.prod, B.prod, 1⟩ ⟨x.arr, A.prod, C.prod, C.prod, 1⟩ ⟨y.arr, C.prod, B.prod, B.prod, 1⟩ rfl rfl rfl
    (rows_pos pB).inj (rv_apart hr hx hax) (rv_apart hr hy hay) m _ _ _ (rv_has hr) (rv_has hx) (rv_has hy)
  simp only [RV2.gAddMatmulAA, decide_true, Res.assrt_true, Res.ok_bind] at a1
  simp only [RV2.addMatmulAA, decide_true, Res.assrt_true, Res.ok_bind] at b1
  rw [a1, b1, becomes_unique a2 b2]

theorem C473_AT_same [CommSemiring α] {r x y : RA} {A B C : List Nat} {f g h : List Nat → α} {m : Buf α} (hr : r.Is (A ++ B) f m) (hx : x.Is (A ++ C) g m)
    (hy : y.Is (B ++ C) h m) (hax : r.Apart x) (hay : r.Apart y) : gMprodAT r x y C.length C.length m = addMprodAT r x y C.length C.length m := by
  rw [gMprodAT, addMprodAT, hx.asize, hy.asize]
  split
  · rfl
  next e =>
  rw [not_or] at e
  obtain ⟨pA, pC⟩ := prod_ne e.1
  obtain ⟨pB, -⟩ := prod_ne e.2
  have hl : x.dims.length - C.length = A.length := by rw [hx.dims]; simp
  have hl' : y.dims.length - C.length = B.length := by rw [hy.dims]; simp
  simp only [hl, hl', combined_back hx e.1, combined_front hy e.2, combined_front hx e.1, combined_back hy e.2, Res.ok_bind, decide_true, Res.assrt_true]
  congr 1; funext _
  congr 1; funext _
  congr 1; funext _
  split
  · rfl
  rw [mprodLoop_eq r _ _ _ _ _ (RV2.cell ⟨x.arr, A.prod, C.prod, C.prod, 1⟩) (fun k j => RV2.cell ⟨y.arr, B.prod, C.prod, C.prod, 1⟩ j k) m
    (fun i k => (rv_cell ..).symm) (fun k j => by rw [rv_cell, Nat.add_comm k])]
  obtain ⟨m1, a1, a2⟩ := C454_AT ⟨r.arr, A.prod, B.prod, B.prod, 1⟩ ⟨x.arr, A.prod, C.prod, C.prod, 1⟩ ⟨y.arr, B.prod, C.prod, C.prod, 1⟩ (rows_pos pB) (rows_pos pC)
    (rows_pos pC) rfl rfl rfl (rv_apart hr hx hax) (rv_apart hr hy hay) m _ _ _ (rv_has hr) (rv_has hx) (rv_has hy)
  obtain ⟨m2, b1, b2⟩ := C134_AT ⟨r.arr, A.prod, B.prod, B.prod, 1⟩ ⟨x.arr, A.prod, C.prod, C.prod, 1⟩ ⟨y.arr, B.prod, C.prod, C.prod, 1⟩ rfl rfl rfl
    (rows_pos pB).inj (rv_apart hr hx hax) (rv_apart hr hy hay) m _ _ _ (rv_has hr) (rv_has hx) (rv_has hy)
  simp only [RV2.gAddMatmulAT, decide_true, Res.assrt_true, Res.ok_bind] at a1
  simp only [RV2.addMatmulAT, decide_true, Res.assrt_true, Res.ok_bind] at b1
  rw [a1, b1, becomes_unique a2 b2]

theorem C473_TA_same [CommSemiring α] {r x y : RA} {A B C : List Nat} {f g h : List Nat → α} {m : Buf α} (hr : r.Is (A ++ B) f m) (hx : x.Is (C ++ A) g m)
    (hy : y.Is (C ++ B) h m) (hax : r.Apart x) (hay : r.Apart y) : gMprodTA r x y C.length C.length m = addMprodTA r x y C.length C.length m := by
  rw [gMprodTA, addMprodTA, hx.asize, hy.asize]
  split
  · rfl
  next e =>
  rw [not_or] at e
  obtain ⟨pC, pA⟩ := prod_ne e.1
  obtain ⟨-, pB⟩ := prod_ne e.2
  simp only [combined_back hx e.1, combined_front hy e.2, combined_front hx e.1, combined_back hy e.2, Res.ok_bind, decide_true, Res.assrt_true]
  congr 1; funext _
  split
  · rfl
  rw [mprodLoop_eq r _ _ _ _ _ (fun i k => RV2.cell ⟨x.arr, C.prod, A.prod, A.prod, 1⟩ k i) (RV2.cell ⟨y.arr, C.prod, B.prod, B.prod, 1⟩) m
    (fun i k => by rw [rv_cell, Nat.add_comm i]) (fun i k => (rv_cell ..).symm)]
  obtain ⟨m1, a1, a2⟩ := C454_TA ⟨r.arr, A.prod, B.prod, B.prod, 1⟩ ⟨x.arr, C.prod, A.prod, A.prod, 1⟩ ⟨y.arr, C.prod, B.prod, B.prod, 1⟩ (rows_pos pB) (rows_pos pA)
    (rows_pos pB) rfl rfl rfl (rv_apart hr hx hax) (rv_apart hr hy hay) m _ _ _ (rv_has hr) (rv_has hx) (rv_has hy)
  obtain ⟨m2, b1, b2⟩ := C134_TA ⟨r.arr, A.prod, B.prod, B.prod, 1⟩ ⟨x.arr, C.prod, A.prod, A.prod, 1⟩ ⟨y.arr, C.prod, B.prod, B.prod, 1⟩ rfl rfl rfl
    (rows_pos pB).inj (rv_apart hr hx hax) (rv_apart hr hy hay) m _ _ _ (rv_has hr) (rv_has hx) (rv_has hy)
  simp only [RV2.gAddMatmulTA, decide_true, Res.assrt_true, Res.ok_bind] at a1
  simp only [RV2.addMatmulTA, decide_true, Res.assrt_true, Res.ok_bind] at b1
  rw [a1, b1, becomes_unique a2 b2]

/-- The products by their entries. -/
theorem C473_products [CommSemiring α] {r : RA} {A B C : List Nat} {f : List Nat → α} {m : Buf α} (hr : r.Is (A ++ B) f m) {x y : RA} (hax : r.Apart x) (hay : r.Apart y)
    {g h : List Nat → α} :
    (x.Is (A ++ C) g m → y.Is (C ++ B) h m → ∃ m', gMprodAA r x y C.length C.length m = .ok m' ∧
      r.Becomes (A ++ B) (fun ix => f ix + ((allIndices C).map fun ic => g (ix.take A.length ++ ic) * h (ic ++ ix.drop A.length)).sum) m m') ∧
    (x.Is (A ++ C) g m → y.Is (B ++ C) h m → ∃ m', gMprodAT r x y C.length C.length m = .ok m' ∧
      r.Becomes (A ++ B) (fun ix => f ix + ((allIndices C).map fun ic => g (ix.take A.length ++ ic) * h (ix.drop A.length ++ ic)).sum) m m') ∧
    (x.Is (C ++ A) g m → y.Is (C ++ B) h m → ∃ m', gMprodTA r x y C.length C.length m = .ok m' ∧
      r.Becomes (A ++ B) (fun ix => f ix + ((allIndices C).map fun ic => g (ic ++ ix.take A.length) * h (ic ++ ix.drop A.length)).sum) m m') := by
  refine ⟨fun hx hy => ?_, fun hx hy => ?_, fun hx hy => ?_⟩
  · rw [C473_AA_same hr hx hy hax hay]; exact C380_AA hr hx hy hax hay
  · rw [C473_AT_same hr hx hy hax hay]; exact C380_AT hr hx hy hax hay
  · rw [C473_TA_same hr hx hy hax hay]; exact C380_TA hr hx hy hax hay

example : ∃ m', gMprodAT (gxa 0) (gxa 4) (gxa 8) 1 1 (fun c => some (c : Int)) = .ok m' ∧ m' 1 = some (1 + (4 * 10 + 5 * 11)) := ⟨_, rfl, rfl⟩
example : (gxa 0).Is ([2] ++ [2]) (fun ix => ((0 + position [2, 2] ix : Nat) : Int)) (fun c => some (c : Int)) ∧ (gxa 0).Apart (gxa 4) ∧ (gxa 0).Apart (gxa 8) :=
  ⟨gxa_is 0, gxa_apart (by decide), gxa_apart (by decide)⟩

/-! ### C474, C475: transposes -/

/-- `geam` on two tensors of the old backend. -/
theorem sgeam_core [Add α] [Mul α] (al be : α) {r x : RA} {A B : List Nat} {f g : List Nat → α} {m : Buf α} (hr : r.Is (B ++ A) f m) (hx : x.Is (A ++ B) g m)
    (hD : (A ++ B).prod ≠ 0) (ha : r.Apart x) : ∃ m', sgeam al be A.prod B.prod x.arr B.prod r.arr A.prod m = .ok m' ∧
      r.Becomes (B ++ A) (fun ix => al * g (ix.drop B.length ++ ix.take B.length) + be * f ix) m m' := by
  obtain ⟨pA, pB⟩ := prod_ne hD
  obtain ⟨m', h1, h2⟩ := pair_core hr (fun ix => al * g (ix.drop B.length ++ ix.take B.length) + be * f ix)
    (fun i j m => do
      let u ← m.read (x.arr + (i + j * B.prod))
      let v ← m.read (r.arr + (j + i * A.prod))
      m.write (r.arr + (j + i * A.prod)) (al * u + be * v)) (by
    intro ib a1 ia a2 m' hm hv
    have hin : position A ia * B.prod + position B ib < (A ++ B).prod := by rw [List.prod_append]; exact two_lt (position_lt a2) (position_lt a1)
    have hg : m' (x.arr + (position A ia * B.prod + position B ib)) = some (g (ia ++ ib)) := by
      rw [hm _ fun ho => ha _ ho (hx.owns hin), pair_at hx (position_lt a2) (position_lt a1), nth_pos a1, nth_pos a2]
    rw [Nat.add_comm (position B ib), Nat.add_comm (position A ia) (position B ib * A.prod), read_ok hg, Res.ok_bind, read_ok hv, Res.ok_bind, ← a1.length, List.drop_left, List.take_left])
  have hf : GeamFine A.prod B.prod x.arr B.prod r.arr A.prod := by
    intro i hi j hj i' hi' j' hj' e
    refine ha _ (own_pair hr hj hi) ?_
    rw [Nat.add_comm _ i, e, Nat.add_comm j']
    exact own_pair hx hi' hj'
  refine ⟨m', ?_, h2⟩
  rw [sgeam, decide_eq_true (by omega), Res.assrt_true, Res.ok_bind, decide_eq_true (by omega), Res.assrt_true, Res.ok_bind, if_pos hf]
  exact h1

/-- Adding a transpose. -/
theorem C474_addTransp [NonAssocSemiring α] {r x : RA} {A B : List Nat} {f g : List Nat → α} {m : Buf α} (hr : r.Is (B ++ A) f m) (hx : x.Is (A ++ B) g m)
    (hD : (A ++ B).prod ≠ 0) (ha : r.Apart x) :
    ∃ m', r.gAddTransp x A.length m = .ok m' ∧ r.Becomes (B ++ A) (fun ix => f ix + g (ix.drop B.length ++ ix.take B.length)) m m' := by
  have hA : A.prod ≠ 0 := fun e => hD (by rw [List.prod_append, e, Nat.zero_mul])
  have hI : x.asize / A.prod = B.prod := by rw [hx.asize, List.prod_append, Nat.mul_comm]; exact Nat.mul_div_cancel _ (Nat.pos_of_ne_zero hA)
  obtain ⟨m', h1, h2⟩ := sgeam_core 1 1 hr hx hD ha
  refine ⟨m', ?_, becomes_congr h2 fun ix _ => by rw [one_mul, one_mul, add_comm]⟩
  rw [gAddTransp, decide_eq_true (by rw [hr.asize, hx.asize]; simp [Nat.mul_comm]), Res.assrt_true, Res.ok_bind, combined_front hx hD, Res.ok_bind,
    show Res.need (decide (A.prod ≠ 0)) = .ok () by rw [decide_eq_true hA]; rfl, Res.ok_bind]
  simp only [hI]
  exact h1

/-- Other totals are refused. -/
theorem C474_refuses [One α] [Add α] [Mul α] {r x : RA} (h : r.asize ≠ x.asize) (n : Nat) (m : Buf α) : r.gAddTransp x n m = .throw := by
  rw [gAddTransp, decide_eq_false h, Res.assrt_false]; rfl

example : ∃ m', (gxa 0).gAddTransp (gxa 4) 1 (fun c => some (c : Int)) = .ok m' ∧ m' 1 = some (1 + 6) ∧ m' 2 = some (2 + 5) := ⟨_, rfl, rfl, rfl⟩

/-- `transp` on the GPU, when the two halves of the axes have the same sizes: the transpose.  Missing: all other shapes, see `C475_shape_fails`. -/
theorem C475_square_partial [NonAssocSemiring α] {x : RA} {A : List Nat} {f : List Nat → α} {m : Buf α} (hx : x.Is (A ++ A) f m) (hD : (A ++ A).prod ≠ 0) (junk : Nat → α)
    (q : Nat) (hf : Free m q (cells (A ++ A))) : ∃ y m', gTransp junk q x A.length m = .ok (y, m') ∧
      y.Fresh q (A ++ A) (fun ix => f (ix.drop A.length ++ ix.take A.length)) m m' ∧ x.Is (A ++ A) f m' := by
  have hA : A.prod ≠ 0 := fun e => hD (by rw [List.prod_append, e, Nat.zero_mul])
  have hI : x.asize / A.prod = A.prod := by rw [hx.asize, List.prod_append, Nat.mul_comm]; exact Nat.mul_div_cancel _ (Nat.pos_of_ne_zero hA)
  obtain ⟨y, m1, h1, e1, e2, h2, h3⟩ := C363_zero hx.ne junk q m
  have hout : y.Apart x := fun c hc ho => hx.not_free hf ho ⟨by rw [← e1]; exact hc.1, by
    have := hc.2
    have hcl := (cells_pos (A ++ A)).2
    rw [e1, h2.asize] at this
    omega⟩
  have hx1 : x.Is (A ++ A) f m1 := hx.keep fun c hc => h3 c (hx.not_free hf hc)
  obtain ⟨m2, h4, h5⟩ := sgeam_core 1 0 h2 hx1 hD hout
  have h6 := becomes_congr h5 (g := fun ix => f (ix.drop A.length ++ ix.take A.length)) fun ix _ => by rw [one_mul, zero_mul, add_zero]
  have hcl := (cells_pos (A ++ A)).2
  refine ⟨y, m2, ?_, ⟨e1, e2, h6.1, fun c hc => ?_⟩, hx1.keep fun c hc => h6.2 c fun ho => hout c ho hc⟩
  · rw [gTransp, combined_front hx hD, Res.ok_bind, show Res.need (decide (A.prod ≠ 0)) = .ok () by rw [decide_eq_true hA]; rfl, Res.ok_bind]
    simp only [hI]
    rw [hx.dims, h1, Res.ok_bind]
    simp only
    rw [h4, Res.ok_bind]
  · rw [h6.2 c fun ho => hc ⟨by rw [← e1]; exact ho.1, ?_⟩, h3 c hc]
    have := ho.2
    rw [e1, h2.asize] at this
    omega

/-- A 2×3 matrix: the CPU returns the 3×2 transpose, the GPU a 2×3 matrix whose entry (0,1) is the entry (1,0) of the argument, not its (0,1) or that of any transpose of that shape. -/
theorem C475_shape_fails : ∃ y m' z m'', transp (fun _ => (9 : Int)) 6 ⟨0, [2, 3], [3, 1], 6, 32, 32, -1, false⟩ 1 (Buf.ofList [1, 2, 3, 4, 5, 6]) = .ok (y, m') ∧
    gTransp (fun _ => (9 : Int)) 6 ⟨0, [2, 3], [3, 1], 6, 32, 32, -1, false⟩ 1 (Buf.ofList [1, 2, 3, 4, 5, 6]) = .ok (z, m'') ∧
    y.dims = [3, 2] ∧ z.dims = [2, 3] ∧ z.strides = [3, 1] ∧ ((List.range 6).map fun i => m'' (6 + i)) = [1, 4, 2, 5, 3, 6].map (some : Int → Option Int) :=
  ⟨_, _, _, _, rfl, rfl, rfl, rfl, rfl, rfl⟩

example : ∃ y m', gTransp (fun _ => (9 : Int)) 4 (gxa 0) 1 (Buf.ofList [1, 2, 3, 4]) = .ok (y, m') ∧ ((List.range 4).map fun i => m' (4 + i)) = [1, 3, 2, 4].map (some : Int → Option Int) :=
  ⟨_, _, rfl, rfl⟩

end RA

end Cnine
