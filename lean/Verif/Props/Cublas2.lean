import Verif.Props.Cublas
import Verif.Props.Visit
import Verif.Props.Assign
import Verif.Props.Cumul
import Verif.Lemmas.Devices

/-!
# Properties C461–C468: sums, scalings and reductions by cuBLAS
-/

namespace Cnine

open View (setZero inplaceTimes addView addMulColumns)

variable {α : Type _}

/-! ## C461: sums by `axpy` -/

/-- `axpy` between tensors given by the cells of their positions. -/
theorem saxpy_at [Add α] [Mul α] (n : Nat) (c : α) (x sx y sy : Nat) (X Y : Nat → α) (m : Buf α)
    (hi : ∀ i, i < n → ∀ j, j < n → y + i * sy = y + j * sy → i = j) (hc : ∀ i, i < n → ∀ j, j < n → y + i * sy = x + j * sx → i = j)
    (hX : ∀ i, i < n → m (x + i * sx) = some (X i)) (hY : ∀ i, i < n → m (y + i * sy) = some (Y i)) :
    ∃ m', saxpy n c x sx y sy m = .ok m' ∧ (∀ i, i < n → m' (y + i * sy) = some (Y i + c * X i)) ∧
      ∀ d, (∀ i, i < n → d ≠ y + i * sy) → m' d = m d :=
  blas_saxpy_ok n c x sx y sy (fun i h j h' => ⟨hi i h j h', hc i h j h'⟩) m X Y hX hY

/-- Vectors of any strides. -/
theorem C461_scaled [Add α] [Mul α] (c : α) (r x : RV1) (hn : x.n0 = r.n0) (hr : r.Inj) (hx : r.Compat x) (m : Buf α) (R X : Nat → α)
    (hR : r.Has m R) (hX : x.Has m X) : ∃ m', r.gAddC c x m = .ok m' ∧ r.Becomes m m' fun i => R i + c * X i := by
  have key : ∃ m', saxpy r.n0 c x.arr x.s0 r.arr r.s0 m = .ok m' ∧ r.Becomes m m' fun i => R i + c * X i := by
    obtain ⟨m', h1, h2, h3⟩ := saxpy_at r.n0 c x.arr x.s0 r.arr r.s0 X R m
      (fun i hi j hj e => by rw [r.cell_comm, r.cell_comm] at e; exact hr i hi j hj e)
      (fun i hi j hj e => by rw [r.cell_comm, x.cell_comm] at e; exact hx i hi j (hn ▸ hj) e)
      (fun i hi => by rw [x.cell_comm]; exact hX i (hn ▸ hi)) (fun i hi => by rw [r.cell_comm]; exact hR i hi)
    refine ⟨m', h1, fun i hi => ?_, fun d hd => h3 d fun i hi => ?_⟩
    · rw [← r.cell_comm]; exact h2 i hi
    · rw [r.cell_comm]; exact hd i hi
  simp only [RV1.gAddC, hn, decide_true, Res.assrt_true, Res.ok_bind]
  by_cases h : (r.isRegular && x.isRegular) = true
  · rw [if_pos h]
    simp only [RV1.isRegular, Bool.and_eq_true, decide_eq_true_eq] at h
    rw [h.1, h.2] at key
    exact key
  · rw [if_neg h]; exact key

theorem C461_vector [MulOneClass α] [Add α] (r x : RV1) (hn : x.n0 = r.n0) (hr : r.Inj) (hx : r.Compat x) (m : Buf α) (R X : Nat → α)
    (hR : r.Has m R) (hX : x.Has m X) : ∃ m', r.gAdd x m = .ok m' ∧ r.Becomes m m' fun i => R i + X i := by
  have := C461_scaled (1 : α) r x hn hr hx m R X hR hX
  simp only [one_mul] at this
  exact this

/-- Regular matrices. -/
theorem C461_matrix [MulOneClass α] [Add α] (r x : RV2) (h0 : x.n0 = r.n0) (h1 : x.n1 = r.n1) (hr : r.isRegular = true)
    (hxr : x.isRegular = true) (hx : r.Compat x) (m : Buf α) (R X : Nat → Nat → α) (hR : r.Has m R) (hX : x.Has m X) :
    ∃ m', r.gAdd x m = .ok m' ∧ r.Becomes m m' fun i j => R i j + X i j := by
  obtain ⟨ra, n0, n1, rs0, rs1⟩ := r
  obtain ⟨xa, a0, a1, xs0, xs1⟩ := x
  obtain ⟨h3, h4⟩ := RV2.isRegular_iff.1 hr
  obtain ⟨h5, h6⟩ := RV2.isRegular_iff.1 hxr
  dsimp only at h0 h1 h3 h4 h5 h6
  have h4 := h4.symm; have h6 := h6.symm
  subst h0 h1 h3 h4 h5 h6
  simp only [RV2.gAdd, decide_true, Res.assrt_true, Res.ok_bind]
  by_cases hz : a0 * a1 = 0
  · rw [if_pos hz]
    refine ⟨m, rfl, fun i hi j hj => ?_, fun _ _ => rfl⟩
    have := Nat.mul_pos (Nat.zero_lt_of_lt hi) (Nat.zero_lt_of_lt hj)
    dsimp only at this
    omega
  rw [if_neg hz]
  have hp : 0 < a1 := Nat.pos_of_ne_zero fun h => hz (by rw [h, Nat.mul_zero])
  have hq : ∀ t, t < a0 * a1 → t / a1 < a0 ∧ t % a1 < a1 := fun t ht => ⟨(Nat.div_lt_iff_lt_mul hp).2 ht, Nat.mod_lt _ hp⟩
  have hcell : ∀ a t, a + t * 1 = RV2.cell ⟨a, a0, a1, a1, 1⟩ (t / a1) (t % a1) := by
    intro a t
    have := Nat.div_add_mod t a1
    simp only [RV2.cell]; omega
  have hback : ∀ a i j, j < a1 → RV2.cell ⟨a, a0, a1, a1, 1⟩ i j = a + (i * a1 + j) * 1 := by
    intro a i j _
    simp only [RV2.cell]; ring
  have hdm : ∀ i j, j < a1 → (i * a1 + j) / a1 = i ∧ (i * a1 + j) % a1 = j := by
    intro i j hj
    rw [Nat.add_comm, Nat.add_mul_div_right _ _ hp, Nat.add_mul_mod_self_right, Nat.div_eq_of_lt hj, Nat.mod_eq_of_lt hj]
    exact ⟨by omega, rfl⟩
  have hlt : ∀ i j, i < a0 → j < a1 → i * a1 + j < a0 * a1 := by
    intro i j hi hj
    have := Nat.mul_le_mul_right a1 (show i + 1 ≤ a0 from hi)
    rw [Nat.add_mul, Nat.one_mul] at this
    omega
  obtain ⟨m', e1, e2, e3⟩ := saxpy_at (a0 * a1) (1 : α) xa 1 ra 1 (fun t => X (t / a1) (t % a1)) (fun t => R (t / a1) (t % a1)) m
    (fun i _ j _ e => by omega)
    (fun i hi j hj e => by
      rw [hcell, hcell] at e
      obtain ⟨u, v⟩ := hx _ (hq i hi).1 _ (hq i hi).2 _ (hq j hj).1 _ (hq j hj).2 e
      rw [← Nat.div_add_mod i a1, ← Nat.div_add_mod j a1, u, v])
    (fun t ht => by rw [hcell]; exact hX _ (hq t ht).1 _ (hq t ht).2)
    (fun t ht => by rw [hcell]; exact hR _ (hq t ht).1 _ (hq t ht).2)
  refine ⟨m', e1, fun i hi j hj => ?_, fun d hd => e3 d fun t ht => ?_⟩
  · have := e2 _ (hlt i j hi hj)
    rw [hback ra i j hj, this]
    simp only [hdm i j hj, one_mul]
  · rw [hcell]; exact hd _ (hq t ht).1 _ (hq t ht).2

/-- Regular tensors with three axes, with and without a factor. -/
theorem C461_three [Add α] [Mul α] (c : α) (r x : RV3) (h0 : x.n0 = r.n0) (h1 : x.n1 = r.n1) (h2 : x.n2 = r.n2) (hr : r.isRegular = true)
    (hxr : x.isRegular = true) (hx : r.Compat x) (m : Buf α) (R X : Nat → Nat → Nat → α) (hR : r.Has m R) (hX : x.Has m X) :
    ∃ m', r.gAddC c x m = .ok m' ∧ r.Becomes m m' fun i j k => R i j k + c * X i j k := by
  obtain ⟨ra, n0, n1, n2, rs0, rs1, rs2⟩ := r
  obtain ⟨xa, a0, a1, a2, xs0, xs1, xs2⟩ := x
  obtain ⟨h3, h4, h5⟩ := RV3.isRegular_iff.1 hr
  obtain ⟨h6, h7, h8⟩ := RV3.isRegular_iff.1 hxr
  dsimp only at h0 h1 h2 h3 h4 h5 h6 h7 h8
  have h4 := h4.symm; have h7 := h7.symm
  subst h0 h1 h2 h3 h4 h5 h6 h7 h8
  simp only [RV3.gAddC]
  by_cases hz : a1 * a2 = 0
  · rw [Nat.mul_assoc, hz, Nat.mul_zero]
    refine ⟨m, by simp [saxpy, AxpyFine, loop, Res.forM], fun i hi j hj k hk => ?_, fun _ _ => rfl⟩
    have := Nat.mul_pos (Nat.zero_lt_of_lt hj) (Nat.zero_lt_of_lt hk)
    dsimp only at this
    omega
  have p1 : 0 < a1 := Nat.pos_of_ne_zero fun h => hz (by rw [h, Nat.zero_mul])
  have p2 : 0 < a2 := Nat.pos_of_ne_zero fun h => hz (by rw [h, Nat.mul_zero])
  have hq : ∀ t, t < a0 * a1 * a2 → t / a2 / a1 < a0 ∧ t / a2 % a1 < a1 ∧ t % a2 < a2 := fun t ht =>
    ⟨(Nat.div_lt_iff_lt_mul p1).2 ((Nat.div_lt_iff_lt_mul p2).2 ht), Nat.mod_lt _ p1, Nat.mod_lt _ p2⟩
  have hre : ∀ t, t = (t / a2 / a1 * a1 + t / a2 % a1) * a2 + t % a2 := by
    intro t
    rw [Nat.div_add_mod', Nat.div_add_mod']
  have hback : ∀ a i j k, RV3.cell ⟨a, a0, a1, a2, a1 * a2, a2, 1⟩ i j k = a + ((i * a1 + j) * a2 + k) * 1 := by
    intro a i j k
    simp only [RV3.cell]; ring
  have hcell : ∀ a t, a + t * 1 = RV3.cell ⟨a, a0, a1, a2, a1 * a2, a2, 1⟩ (t / a2 / a1) (t / a2 % a1) (t % a2) := by
    intro a t
    rw [hback, ← hre]
  have hdm : ∀ i j k, j < a1 → k < a2 → ((i * a1 + j) * a2 + k) / a2 / a1 = i ∧ ((i * a1 + j) * a2 + k) / a2 % a1 = j ∧
      ((i * a1 + j) * a2 + k) % a2 = k := by
    intro i j k hj hk
    have e : ((i * a1 + j) * a2 + k) / a2 = i * a1 + j := by
      rw [Nat.add_comm, Nat.add_mul_div_right _ _ p2, Nat.div_eq_of_lt hk, Nat.zero_add]
    rw [e]
    refine ⟨?_, ?_, ?_⟩
    · rw [Nat.add_comm, Nat.add_mul_div_right _ _ p1, Nat.div_eq_of_lt hj, Nat.zero_add]
    · rw [Nat.add_comm, Nat.add_mul_mod_self_right, Nat.mod_eq_of_lt hj]
    · rw [Nat.add_comm, Nat.add_mul_mod_self_right, Nat.mod_eq_of_lt hk]
  have hlt : ∀ i j k, i < a0 → j < a1 → k < a2 → (i * a1 + j) * a2 + k < a0 * a1 * a2 := by
    intro i j k hi hj hk
    have u := Nat.mul_le_mul_right a1 (show i + 1 ≤ a0 from hi)
    rw [Nat.add_mul, Nat.one_mul] at u
    have v := Nat.mul_le_mul_right a2 (show i * a1 + j + 1 ≤ a0 * a1 by omega)
    rw [Nat.add_mul, Nat.one_mul] at v
    omega
  obtain ⟨m', e1, e2, e3⟩ := saxpy_at (a0 * a1 * a2) c xa 1 ra 1 (fun t => X (t / a2 / a1) (t / a2 % a1) (t % a2))
    (fun t => R (t / a2 / a1) (t / a2 % a1) (t % a2)) m
    (fun i _ j _ e => by omega)
    (fun i hi j hj e => by
      rw [hcell, hcell] at e
      obtain ⟨u, v, w⟩ := hx _ (hq i hi).1 _ (hq i hi).2.1 _ (hq i hi).2.2 _ (hq j hj).1 _ (hq j hj).2.1 _ (hq j hj).2.2 e
      rw [hre i, hre j, u, v, w])
    (fun t ht => by rw [hcell]; exact hX _ (hq t ht).1 _ (hq t ht).2.1 _ (hq t ht).2.2)
    (fun t ht => by rw [hcell]; exact hR _ (hq t ht).1 _ (hq t ht).2.1 _ (hq t ht).2.2)
  refine ⟨m', e1, fun i hi j hj k hk => ?_, fun d hd => e3 d fun t ht => ?_⟩
  · have := e2 _ (hlt i j k hi hj hk)
    rw [hback ra i j k, this]
    simp only [hdm i j k hj hk]
  · rw [hcell]; exact RV3.not_mem.1 hd _ (hq t ht).1 _ (hq t ht).2.1 _ (hq t ht).2.2

/-- Vectors of different lengths are refused. -/
theorem C461_refuses [One α] [Add α] [Mul α] (c : α) (r x : RV1) (h : x.n0 ≠ r.n0) (m : Buf α) :
    r.gAdd x m = .throw ∧ r.gAddC c x m = .throw := by
  simp only [RV1.gAdd, RV1.gAddC, h, decide_false, Res.assrt_false]
  exact ⟨rfl, rfl⟩

example : (⟨0, 3, 2⟩ : RV1).Inj ∧ (⟨0, 3, 2⟩ : RV1).Compat ⟨1, 3, 2⟩ ∧ (⟨0, 3, 2⟩ : RV1).Has gxM (fun i => 2 * i) ∧
    (⟨1, 3, 2⟩ : RV1).Has gxM (fun i => 2 * i + 1) := by
  refine ⟨RV1.inj_of_stride (by decide), fun i hi j hj e => ?_, fun i hi => ?_, fun i hi => ?_⟩
  · simp only [RV1.cell] at e; omega
  · dsimp only at hi; interval_cases i <;> rfl
  · dsimp only at hi; interval_cases i <;> rfl
example : ∃ m', (⟨0, 3, 2⟩ : RV1).gAddC 10 ⟨1, 3, 2⟩ gxM = .ok m' ∧ m' 4 = some 54 ∧ m' 5 = some 5 := ⟨_, rfl, by decide, by decide⟩
example : gxR.isRegular = true ∧ (⟨4, 2, 2, 2, 1⟩ : RV2).isRegular = true ∧ gxR.Apart ⟨4, 2, 2, 2, 1⟩ := by decide
example : gxR3.isRegular = true ∧ (⟨8, 2, 2, 2, 4, 2, 1⟩ : RV3).isRegular = true ∧ gxR3.Apart ⟨8, 2, 2, 2, 4, 2, 1⟩ := by decide

/-! ## C462: the sum of a vector -/

/-- With entries the absolute value leaves as they are, `reduce()` on the GPU is their sum.  Missing: it must be the sum for all entries,
see `C462_negative_fails`. -/
theorem C462_reduce_partial [AddMonoid α] (av : α → α) (v : RV1) (m : Buf α) (X : Nat → α) (hX : v.Has m X)
    (hp : ∀ i, i < v.n0 → av (X i) = X i) : v.gReduce av m = .ok ((List.range v.n0).map X).sum := by
  unfold RV1.gReduce sasum
  have : ∀ n, n ≤ v.n0 → (loop n (0 : α) fun i t => do
      let u ← m.read (v.arr + i * v.s0)
      .ok (t + av u)) = .ok ((List.range n).map X).sum := by
    intro n
    induction n with
    | zero => intro _; rfl
    | succ n ih =>
      intro hn
      have ih := ih (by omega)
      unfold loop at ih ⊢
      rw [List.range_succ, Res.forM_append, ih, Res.ok_bind, Res.forM_cons]
      dsimp only
      rw [v.cell_comm, read_ok (hX n (by omega)), Res.ok_bind, hp n (by omega), Res.ok_bind, Res.forM_nil]
      simp
  exact this v.n0 (Nat.le_refl _)

/-- The GPU adds absolute values: the vector `(3,-5)` has the sum `-2`, the GPU gives `8`. -/
theorem C462_negative_fails :
    ∃ (v : RV1) (m : Buf Int) (X : Nat → Int), v.Has m X ∧ ((List.range v.n0).map X).sum = -2 ∧ v.gReduce (fun a => (a.natAbs : Int)) m = .ok 8 := by
  refine ⟨⟨0, 2, 1⟩, fun c => if c = 0 then some 3 else some (-5), fun i => if i = 0 then 3 else -5, fun i hi => ?_, rfl, rfl⟩
  dsimp only at hi
  interval_cases i <;> rfl

example : (⟨0, 2, 1⟩ : RV1).gReduce (fun a => (a.natAbs : Int)) (fun c => some (c + 1 : Int)) = .ok 3 := rfl

/-! ## C463: scaling a tensor -/

theorem saxpy_self [Add α] [Mul α] (n : Nat) (c : α) (p : Nat) (m : Buf α) :
    saxpy n c p 1 p 1 m = loop n m (fun i m => do
      let a ← m.read (p + i)
      m.write (p + i) (a + c * a)) := by
  rw [saxpy, if_pos (axpyFine_one (.inl rfl))]
  unfold loop
  apply forM_congr
  intro i _ m
  dsimp only
  rw [Nat.mul_one]
  unfold incCell Buf.read
  cases m (p + i) <;> rfl

/-- `inplace_times(c)` on the GPU multiplies every entry by `1+c` instead of `c` when the tensor has no gaps. -/
theorem C463_twice_fails [Add α] [Mul α] (c : α) (v : View) (hwf : v.WF) (hdist : v.Distinct)
    (hc : isContiguous v.strides v.dims = .ok true) (m : Buf α) (ha : v.Alloc m) :
    ∃ m', v.gInplaceTimes c m = .ok m' ∧ Updated v (fun ix => (v.val m ix).map fun a => a + c * a) m m' := by
  obtain ⟨m', h1, h2⟩ := C79_inplace_times (fun a => a + c * a) v hwf hdist m ha
  refine ⟨m', ?_, h2⟩
  rw [← h1, View.gInplaceTimes, inplaceTimes, hc, Res.ok_bind, Res.ok_bind, if_pos rfl, if_pos rfl, saxpy_self]

/-- Scaling `(1,2)` by 3 gives `(4,8)`; the CPU gives `(3,6)`. -/
theorem C463_times_fails :
    ∃ (v : View) (m m' m'' : Buf Nat), v.WF ∧ v.Distinct ∧ v.Alloc m ∧ inplaceTimes (3 * ·) v m = .ok m' ∧ v.gInplaceTimes 3 m = .ok m'' ∧
      v.val m' [1] = some 6 ∧ v.val m'' [1] = some 8 := by
  exact ⟨⟨0, [2], [1]⟩, Buf.ofList [1, 2], _, _, rfl, by decide, by decide, rfl, rfl, by decide, by decide⟩

/-- A tensor with gaps is not scaled at all. -/
theorem C463_gaps_fails :
    ∃ (v : View) (m : Buf Nat), v.WF ∧ v.Distinct ∧ v.Alloc m ∧ v.gInplaceTimes 3 m = .ok m ∧ v.val m [1] = some 2 :=
  ⟨⟨0, [2], [2]⟩, Buf.ofList [1, 7, 2], rfl, by decide, by decide, rfl, by decide⟩

example : isContiguous [1, 2] [2, 3] = .ok true ∧ (⟨1, [2, 3], [1, 2]⟩ : View).Distinct := by decide

/-! ## C464: making a tensor zero -/

/-- On a tensor without gaps `set_zero()` on the GPU makes every entry zero and nothing else. -/
theorem C464_zero [Zero α] (v : View) (hwf : v.WF) (hdist : v.Distinct) (hc : isContiguous v.strides v.dims = .ok true) (m : Buf α)
    (ha : v.Alloc m) : ∃ m', v.gSetZero m = .ok m' ∧ Updated v (fun _ => some 0) m m' :=
  C78_set_zero_partial 0 v hwf hdist hc m ha

/-- For every tensor the GPU does what the CPU does. -/
theorem C464_same [Zero α] (v : View) (m : Buf α) : v.gSetZero m = setZero 0 v m := rfl

example : (View.gSetZero ⟨1, [2, 2], [1, 2]⟩ (Buf.ofList [7, 7, 7, 7, 7, 7])).bind
    (fun m => .ok ((List.range 6).map m)) = .ok [some 7, some 0, some 0, some 0, some 0, some 7] := by decide

/-! ## C465: adding tensors without gaps -/

/-- `r.add(x)` on the GPU for two tensors with the same strides and no gaps adds entry by entry, on tensors that share no cell or only at
equal positions. -/
theorem C465_add [NonAssocSemiring α] (r x : View) (hr : r.WF) (hx : x.WF) (hd : r.dims = x.dims) (hst : r.strides = x.strides)
    (hs : ∀ s ∈ r.strides, s < intMax) (hz : r.strides = [] ∨ ∃ s ∈ r.strides, s ≠ 0) (hdist : r.Distinct)
    (hc : isContiguous r.strides r.dims = .ok true) (hal : r.Aligned x) (m : Buf α) (hra : r.Alloc m) (hxa : x.Alloc m) :
    ∃ m', r.gAddView x m = .ok m' ∧
      Updated r (fun ix => do let a ← r.val m ix; let b ← x.val m ix; pure (a + b)) m m' := by
  obtain ⟨m', h1, h2⟩ := C17_add_partial (· + ·) r x hr hx hd hs hz hdist hal m hra hxa
  refine ⟨m', ?_, h2⟩
  rw [← h1]
  unfold View.gAddView addView
  simp only [hd, decide_true, Res.assrt_true, Res.ok_bind]
  by_cases hp : asize x.dims = 0
  · rw [if_pos hp, if_pos hp]
  rw [if_neg hp, if_neg hp, ← hd, hc, Res.ok_bind, Res.ok_bind, if_pos ⟨rfl, hst⟩, if_pos ⟨rfl, hst⟩, ← hst]
  rw [asize_eq, ← hd] at hp
  obtain ⟨hperm, hms⟩ := distinct_contiguous r hr (Nat.pos_of_ne_zero hp) hdist hc
  obtain ⟨c1, c2⟩ := Dev.contig_cells r hr hperm
  rw [hms hz, Res.ok_bind, Res.ok_bind, saxpy, if_pos ?_]
  · unfold stdAdd loop
    apply forM_congr
    intro i _ m
    dsimp only
    rw [Nat.mul_one]
    unfold incCell updCell Buf.read
    cases m (x.off + i) <;> cases m (r.off + i) <;> first | rfl | simp
  · intro i hi j hj
    refine ⟨fun e => by omega, fun e => ?_⟩
    obtain ⟨ix, hix, rfl⟩ := c2 i hi
    obtain ⟨jx, hjx, rfl⟩ := c2 j hj
    have := hal ix jx hix (hd ▸ hjx) (by simp only [View.cell]; rw [← hst]; omega)
    rw [this]

theorem C465_refuses [One α] [Add α] [Mul α] (r x : View) (hd : r.dims ≠ x.dims) (m : Buf α) : r.gAddView x m = .throw := by
  simp [View.gAddView, hd]

example : (⟨0, [2, 3], [1, 2]⟩ : View).Distinct ∧ isContiguous [1, 2] [2, 3] = .ok true ∧ (⟨0, [2, 3], [1, 2]⟩ : View).Aligned ⟨6, [2, 3], [1, 2]⟩ ∧
    (⟨0, [2, 3], [1, 2]⟩ : View).Alloc gxM := by decide
example : (View.gAddView ⟨0, [2, 3], [1, 2]⟩ ⟨6, [2, 3], [1, 2]⟩ gxM).bind (fun m => .ok ((List.range 7).map m)) =
    .ok [some 6, some 8, some 10, some 12, some 14, some 16, some 6] := by decide

/-! ## C466: columns times numbers -/

/-- `add_scale_columns(x,y)` and `add_mul_columns(x,y)` must add `x(i,j)·y(j)` to `r(i,j)`.  The GPU multiplies `r(i,j)` by `y(j)` and does
not look at `x`. -/
theorem C466_columns_fails :
    ∃ (r x y : View) (m m' m'' : Buf Nat), r.WF ∧ x.WF ∧ y.WF ∧ r.Distinct ∧ r.Apart x ∧ r.Apart y ∧ r.Alloc m ∧ x.Alloc m ∧ y.Alloc m ∧
      addMulColumns (fun a b c => a + b * c) r x y m = .ok m' ∧ r.gAddScaleColumns x y m = .ok m'' ∧
      r.val m [1, 0] = some 3 ∧ x.val m [1, 0] = some 7 ∧ y.val m [0] = some 9 ∧ r.val m' [1, 0] = some 66 ∧ r.val m'' [1, 0] = some 27 :=
  ⟨⟨0, [2, 2], [2, 1]⟩, ⟨4, [2, 2], [2, 1]⟩, ⟨8, [2], [1]⟩, Buf.ofList [1, 2, 3, 4, 5, 6, 7, 8, 9, 10], _, _, by decide, by decide, by decide,
    by decide, by decide, by decide, by decide, by decide, by decide, rfl, rfl, by decide, by decide, by decide, by decide, by decide⟩

/-! ## C467: adding a vector to every row -/

/-- `add_broadcast0(x,alpha)` on the GPU adds `alpha·x` to every row, for rows that do not overlap. -/
theorem C467_broadcast [NonAssocSemiring α] (one : Nat) (al : α) (r : RV2) (x : RV1) (hn : x.n0 = r.n1) (hp : 0 < r.n1) (hs : r.s1 = 1)
    (hx1 : x.s0 = 1) (hr : r.Inj) (hx : r.Apart1 x) (h1 : ∀ i, i < r.n0 → ∀ j, j < r.n1 → r.cell i j ≠ one) (m : Buf α)
    (ho : m one = some 1) (R : Nat → Nat → α) (X : Nat → α) (hR : r.Has m R) (hX : x.Has m X) :
    ∃ m', r.gAddBroadcast0 one al x m = .ok m' ∧ r.Becomes m m' fun i j => R i j + al * X j := by
  simp only [RV2.gAddBroadcast0, hn, decide_true, Res.assrt_true, Res.ok_bind]
  rw [if_pos ⟨hx1, hs⟩]
  have eC : ∀ t i, Gemm.C ⟨.N, .N, r.n1, 1, 1, x.arr, r.n1, 0, one, 1, 0, r.arr, r.n1, r.s0, r.n0⟩ 1 t i 0 = r.cell t i := by
    intro t i
    simp only [Gemm.C, RV2.cell, hs]; ring
  have eA : ∀ t i, Gemm.A ⟨.N, .N, r.n1, 1, 1, x.arr, r.n1, 0, one, 1, 0, r.arr, r.n1, r.s0, r.n0⟩ 1 t i 0 = x.cell i := by
    intro t i
    simp only [Gemm.A, RV1.cell, hx1, BlasOp.pos]; ring
  have eB : ∀ t, Gemm.B ⟨.N, .N, r.n1, 1, 1, x.arr, r.n1, 0, one, 1, 0, r.arr, r.n1, r.s0, r.n0⟩ 1 t 0 0 = one := by
    intro t
    simp only [Gemm.B, BlasOp.pos]; ring
  obtain ⟨m', e1, e2, e3⟩ := sgemm_ok al ⟨.N, .N, r.n1, 1, 1, x.arr, r.n1, 0, one, 1, 0, r.arr, r.n1, r.s0, r.n0⟩
    (by
      simp only [Gemm.ldOk, Bool.and_eq_true, decide_eq_true_eq, if_true]
      omega)
    (fine_one
      (by
        intro t ht i hi j hj t' ht' i' hi' j' hj' e
        obtain rfl : j = 0 := by dsimp only at hj; omega
        obtain rfl : j' = 0 := by dsimp only at hj'; omega
        rw [eC, eC] at e
        obtain ⟨u, v⟩ := hr _ ht _ hi _ ht' _ hi' e
        exact ⟨u, v, rfl⟩)
      (by
        intro t ht i hi j hj t' _ i' hi' l hl
        obtain rfl : j = 0 := by dsimp only at hj; omega
        obtain rfl : l = 0 := by dsimp only at hl; omega
        rw [eC, eA]
        exact hx _ ht _ hi _ (hn ▸ hi'))
      (by
        intro t ht i hi j hj t' _ l hl j' hj'
        obtain rfl : j = 0 := by dsimp only at hj; omega
        obtain rfl : l = 0 := by dsimp only at hl; omega
        obtain rfl : j' = 0 := by dsimp only at hj'; omega
        rw [eC, eB]
        exact h1 _ ht _ hi)) m
    (fun t i _ => R t i) (fun _ i _ => X i) (fun _ _ _ => 1)
    (fun t ht j hj i hi => by
      obtain rfl : j = 0 := by dsimp only at hj; omega
      rw [eC]; exact hR t ht i hi)
    (fun t _ i hi l hl => by
      obtain rfl : l = 0 := by dsimp only at hl; omega
      rw [eA]; exact hX i (hn ▸ hi))
    (fun t _ l hl j hj => by
      obtain rfl : l = 0 := by dsimp only at hl; omega
      obtain rfl : j = 0 := by dsimp only at hj; omega
      rw [eB]; exact ho)
  refine ⟨m', e1, fun i hi j hj => ?_, fun c hc => e3 c fun t ht j hj i hi => ?_⟩
  · have := e2 i hi 0 Nat.one_pos j hj
    rw [eC] at this
    rw [this]
    simp
  · obtain rfl : j = 0 := by dsimp only at hj; omega
    rw [eC]; exact hc t ht i hi

theorem C467_refuses [Zero α] [Add α] [Mul α] (one : Nat) (al : α) (r : RV2) (x : RV1) (hn : x.n0 ≠ r.n1) (m : Buf α) :
    r.gAddBroadcast0 one al x m = .throw := by
  simp only [RV2.gAddBroadcast0, hn, decide_false, Res.assrt_false]
  rfl

example : gxX.Inj ∧ gxX.Apart1 ⟨20, 3, 1⟩ ∧ (∀ i, i < gxX.n0 → ∀ j, j < gxX.n1 → gxX.cell i j ≠ 1) ∧ gxM 1 = some 1 ∧ gxX.s1 = 1 :=
  ⟨by decide, by unfold RV2.Apart1; decide, by decide, rfl, rfl⟩
example : ∃ m', gxX.gAddBroadcast0 1 10 ⟨20, 3, 1⟩ gxM = .ok m' ∧ m' 9 = some (9 + 210) ∧ m' 7 = some 7 := ⟨_, rfl, by decide, by decide⟩

/-! ## C468: adding complex matrices -/

/-- `add(x)` of two regular complex matrices on the GPU adds only the first half of the floats: of 2×2 matrices the second row is not added. -/
theorem C468_half_fails :
    ∃ (r x : CV2) (m m' : Buf Int) (R X : Nat → Nat → Cx Int), r.isRegular = true ∧ x.isRegular = true ∧ x.n0 = r.n0 ∧ x.n1 = r.n1 ∧
      r.Has m R ∧ x.Has m X ∧ (∀ c, r.Cov c → ¬ x.Cov c) ∧ r.gAdd x m = .ok m' ∧
      (m' 0, m' 1) = (some (R 0 0 + X 0 0).re, some (R 0 0 + X 0 0).im) ∧
      (m' 4, m' 5) = (some (R 1 0).re, some (R 1 0).im) ∧ (X 1 0).re ≠ 0 :=
  ⟨CVEx.A, CVEx.B, CVEx.m0, _, fun i j => CVEx.ent 0 (2 * i + j), fun i j => CVEx.ent 8 (2 * i + j), by decide, by decide, rfl, rfl,
    by decide, by decide, CVEx.apart_AB, rfl, by decide, by decide, by decide⟩

end Cnine
