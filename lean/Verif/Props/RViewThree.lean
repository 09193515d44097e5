import Verif.Lemmas.RView3

/-! # Views with three axes: element-wise operations, products, sums, reductions, broadcasts, views of views -/

namespace Cnine

variable {α : Type}

namespace RV3

/-- The view shows the array `X`. -/
def Has (v : RV3) (m : Buf α) (X : Nat → Nat → Nat → α) : Prop :=
  ∀ i, i < v.n0 → ∀ j, j < v.n1 → ∀ k, k < v.n2 → m (v.cell i j k) = some (X i j k)

/-- Different positions are different cells. -/
def Inj (v : RV3) : Prop := ∀ i, i < v.n0 → ∀ j, j < v.n1 → ∀ k, k < v.n2 → ∀ i', i' < v.n0 → ∀ j', j' < v.n1 → ∀ k', k' < v.n2 →
  v.cell i j k = v.cell i' j' k' → i = i' ∧ j = j' ∧ k = k'

/-- No common cell. -/
def Apart (r x : RV3) : Prop := ∀ i, i < r.n0 → ∀ j, j < r.n1 → ∀ k, k < r.n2 → ∀ i', i' < x.n0 → ∀ j', j' < x.n1 → ∀ k', k' < x.n2 →
  r.cell i j k ≠ x.cell i' j' k'

/-- Common cells only at equal positions. -/
def Compat (r x : RV3) : Prop := ∀ i, i < r.n0 → ∀ j, j < r.n1 → ∀ k, k < r.n2 → ∀ i', i' < x.n0 → ∀ j', j' < x.n1 → ∀ k', k' < x.n2 →
  r.cell i j k = x.cell i' j' k' → i = i' ∧ j = j' ∧ k = k'

/-- No common cell with a matrix view. -/
def Apart2 (r : RV3) (x : RV2) : Prop := ∀ i, i < r.n0 → ∀ j, j < r.n1 → ∀ k, k < r.n2 → ∀ i', i' < x.n0 → ∀ j', j' < x.n1 →
  r.cell i j k ≠ x.cell i' j'

/-- No common cell with a vector view. -/
def Apart1 (r : RV3) (x : RV1) : Prop := ∀ i, i < r.n0 → ∀ j, j < r.n1 → ∀ k, k < r.n2 → ∀ i', i' < x.n0 → r.cell i j k ≠ x.cell i'

/-- The cell belongs to the view. -/
def Mem (v : RV3) (c : Nat) : Prop := ∃ i, i < v.n0 ∧ ∃ j, j < v.n1 ∧ ∃ k, k < v.n2 ∧ c = v.cell i j k

/-- The view shows `X` afterwards and nothing else changed. -/
def Becomes (v : RV3) (m m' : Buf α) (X : Nat → Nat → Nat → α) : Prop := v.Has m' X ∧ ∀ c, ¬ v.Mem c → m' c = m c

theorem not_mem {v : RV3} {c : Nat} : ¬ v.Mem c ↔ ∀ i, i < v.n0 → ∀ j, j < v.n1 → ∀ k, k < v.n2 → c ≠ v.cell i j k := by
  constructor
  · exact fun h i hi j hj k hk e => h ⟨i, hi, j, hj, k, hk, e⟩
  · rintro h ⟨i, hi, j, hj, k, hk, e⟩
    exact h i hi j hj k hk e

theorem Apart.compat {r x : RV3} (h : r.Apart x) : r.Compat x :=
  fun i hi j hj k hk i' hi' j' hj' k' hk' e => absurd e (h i hi j hj k hk i' hi' j' hj' k' hk')

theorem isRegular_iff {v : RV3} : v.isRegular = true ↔ v.s2 = 1 ∧ v.s1 = v.n2 ∧ v.s0 = v.n1 * v.n2 := by
  simp only [isRegular, Bool.and_eq_true, decide_eq_true_eq]
  constructor
  · rintro ⟨⟨h1, h2⟩, h3⟩; exact ⟨h1, h2, by rw [h3, h2]⟩
  · rintro ⟨h1, h2, h3⟩; exact ⟨⟨h1, h2⟩, by rw [h3, h2]⟩

theorem slice0_cell (v : RV3) (i j k : Nat) : (v.slice0 i).cell j k = v.cell i j k := by
  simp only [slice0, RV2.cell, cell]; ring

theorem slice1_cell (v : RV3) (i j k : Nat) : (v.slice1 j).cell i k = v.cell i j k := by
  simp only [slice1, RV2.cell, cell]; ring

theorem slice2_cell (v : RV3) (i j k : Nat) : (v.slice2 k).cell i j = v.cell i j k := by
  simp only [slice2, RV2.cell, cell]; ring

/-- The matrix `fuse12` makes of a regular view. -/
def flat12 (v : RV3) : RV2 := ⟨v.arr, v.n0, v.n1 * v.n2, v.s0, v.s2⟩

/-- The matrix `fuse01` makes of a regular view. -/
def flat01 (v : RV3) : RV2 := ⟨v.arr, v.n0 * v.n1, v.n2, v.s1, v.s2⟩

theorem fuse12_eq {v : RV3} (h : v.isRegular = true) : v.fuse12 = .ok v.flat12 := by simp [fuse12, h, flat12]

theorem fuse01_eq {v : RV3} (h : v.isRegular = true) : v.fuse01 = .ok v.flat01 := by simp [fuse01, h, flat01]

theorem flat12_cell {v : RV3} (h : v.isRegular = true) (i j k : Nat) : v.flat12.cell i (v.n2 * j + k) = v.cell i j k := by
  obtain ⟨h1, h2, h3⟩ := isRegular_iff.1 h
  simp only [flat12, RV2.cell, cell, h1, h2]; ring

theorem flat01_cell {v : RV3} (h : v.isRegular = true) (i j k : Nat) : v.flat01.cell (v.n1 * i + j) k = v.cell i j k := by
  obtain ⟨h1, h2, h3⟩ := isRegular_iff.1 h
  simp only [flat01, RV2.cell, cell, h1, h2, h3]; ring

theorem flat12_regular {v : RV3} (h : v.isRegular = true) : v.flat12.isRegular = true := by
  obtain ⟨h1, h2, h3⟩ := isRegular_iff.1 h
  rw [RV2.isRegular_iff]; exact ⟨h1, h3⟩

theorem flat01_regular {v : RV3} (h : v.isRegular = true) : v.flat01.isRegular = true := by
  obtain ⟨h1, h2, h3⟩ := isRegular_iff.1 h
  rw [RV2.isRegular_iff]; exact ⟨h1, h2⟩

theorem flat12_has {v : RV3} (h : v.isRegular = true) {m : Buf α} {X : Nat → Nat → Nat → α} (hX : v.Has m X) :
    v.flat12.Has m fun i l => X i (l / v.n2) (l % v.n2) := by
  intro i hi l hl
  have := hX i hi _ (RV2.div_lt_of_flat hl) _ (RV2.mod_lt_of_flat hl)
  rwa [← flat12_cell h, Nat.div_add_mod] at this

theorem flat01_has {v : RV3} (h : v.isRegular = true) {m : Buf α} {X : Nat → Nat → Nat → α} (hX : v.Has m X) :
    v.flat01.Has m fun l k => X (l / v.n1) (l % v.n1) k := by
  intro l hl k hk
  have := hX _ (RV2.div_lt_of_flat hl) _ (RV2.mod_lt_of_flat hl) k hk
  rwa [← flat01_cell h, Nat.div_add_mod] at this

theorem flat12_mem {v : RV3} (h : v.isRegular = true) {c : Nat} (hc : ¬ v.Mem c) :
    ∀ i, i < v.flat12.n0 → ∀ l, l < v.flat12.n1 → c ≠ v.flat12.cell i l := by
  intro i hi l hl e
  rw [← Nat.div_add_mod l v.n2, flat12_cell h] at e
  exact hc ⟨i, hi, _, RV2.div_lt_of_flat hl, _, RV2.mod_lt_of_flat hl, e⟩

theorem flat01_mem {v : RV3} (h : v.isRegular = true) {c : Nat} (hc : ¬ v.Mem c) :
    ∀ l, l < v.flat01.n0 → ∀ k, k < v.flat01.n1 → c ≠ v.flat01.cell l k := by
  intro l hl k hk e
  rw [← Nat.div_add_mod l v.n1, flat01_cell h] at e
  exact hc ⟨_, RV2.div_lt_of_flat hl, _, RV2.mod_lt_of_flat hl, k, hk, e⟩

theorem reg_inj {v : RV3} (h : v.isRegular = true) : v.Inj := by
  intro i hi j hj k hk i' hi' j' hj' k' hk' e
  rw [← flat12_cell h, ← flat12_cell h] at e
  obtain ⟨e1, e2⟩ := RV2.reg_inj (flat12_regular h) i hi _ (RV2.flat_lt hj hk) i' hi' _ (RV2.flat_lt hj' hk') e
  exact ⟨e1, by rw [← RV2.flat_div (i := j) hk, e2, RV2.flat_div hk'], by rw [← RV2.flat_mod (i := j) hk, e2, RV2.flat_mod hk']⟩

end RV3

open RV3

/-! ### C234 element-wise operations for equal sizes -/

theorem C234_fill (r : RV3) (v : α) (hr : r.Inj) (m : Buf α) (R : Nat → Nat → Nat → α) (hR : r.Has m R) :
    ∃ m', r.fill v m = .ok m' ∧ r.Becomes m m' fun _ _ _ => v := by
  obtain ⟨m', h1, h2, h3⟩ := loop3_cells r.n0 r.n1 r.n2 r.cell (fun _ _ _ => v)
    (fun i j k m => m.write (r.arr + (i * r.s0 + j * r.s1 + k * r.s2)) v) m hr
    (fun i hi j hj k hk => by rw [hR i hi j hj k hk]; rfl)
    (by intros; rw [cell, Nat.mul_comm r.s0, Nat.mul_comm r.s1, Nat.mul_comm r.s2])
  exact ⟨m', h1, h2, fun c hc => h3 c (not_mem.1 hc)⟩

theorem fast_iff {r x : RV3} : r.fast x = true ↔ (x.n0 = r.n0 ∧ x.n1 = r.n1 ∧ x.n2 = r.n2) ∧ r.isRegular = true ∧ x.isRegular = true := by
  simp [RV3.fast, and_assoc]

/-- Both branches of the element-wise operations: a run over flat memory, or three loops. -/
theorem ew_core (op op' : α → α → α) (r x : RV3) (h0 : r.n0 = x.n0) (h1 : r.n1 = x.n1) (h2 : r.n2 = x.n2) (hr : r.Inj)
    (m : Buf α) (R X : Nat → Nat → Nat → α) (hR : r.Has m R) (hX : x.Has m X) (whole : Buf α → Res (Buf α))
    (body : Nat → Nat → Nat → Buf α → Res (Buf α)) (hx : r.Compat x)
    (hw : ∀ f g : RV2, f.isRegular = true → g.isRegular = true → f.n0 = g.n0 → f.n1 = g.n1 → f.n0 * f.n1 = r.n0 * r.n1 * r.n2 →
      f.arr = r.arr → g.arr = x.arr → f.Compat g → (r.Apart x → f.Apart g) → ∀ F G : Nat → Nat → α, f.Has m F → g.Has m G →
      ∃ m', whole m = .ok m' ∧ f.Becomes m m' fun i j => op' (F i j) (G i j))
    (hb : ∀ i j k m a b, m (r.cell i j k) = some a → m (x.cell i j k) = some b → body i j k m = m.write (r.cell i j k) (op a b)) :
    ∃ m', (if r.fast x then whole m else loop x.n0 m fun i m => loop x.n1 m fun j m => loop x.n2 m fun k m => body i j k m) = .ok m' ∧
      r.Becomes m m' fun i j k => if r.fast x then op' (R i j k) (X i j k) else op (R i j k) (X i j k) := by
  by_cases h : r.fast x = true
  · simp only [if_pos h]
    obtain ⟨-, hrr, hxr⟩ := fast_iff.1 h
    obtain ⟨m', g1, g2, g3⟩ := hw r.flat12 x.flat12 (flat12_regular hrr) (flat12_regular hxr) h0
      (by simp only [flat12]; rw [h1, h2]) (by simp only [flat12]; ring) rfl rfl
      (by
        intro i hi l hl i' hi' l' hl' e
        rw [← Nat.div_add_mod l r.n2, ← Nat.div_add_mod l' x.n2, flat12_cell hrr, flat12_cell hxr] at e
        obtain ⟨e1, e2, e3⟩ := hx i hi _ (RV2.div_lt_of_flat hl) _ (RV2.mod_lt_of_flat hl) i' hi' _ (RV2.div_lt_of_flat hl') _
          (RV2.mod_lt_of_flat hl') e
        exact ⟨e1, by rw [← Nat.div_add_mod l r.n2, ← Nat.div_add_mod l' x.n2, e2, e3, h2]⟩)
      (by
        intro ha i hi l hl i' hi' l' hl' e
        rw [← Nat.div_add_mod l r.n2, ← Nat.div_add_mod l' x.n2, flat12_cell hrr, flat12_cell hxr] at e
        exact ha i hi _ (RV2.div_lt_of_flat hl) _ (RV2.mod_lt_of_flat hl) i' hi' _ (RV2.div_lt_of_flat hl') _
          (RV2.mod_lt_of_flat hl') e)
      _ _ (flat12_has hrr hR) (flat12_has hxr hX)
    refine ⟨m', g1, ?_, fun c hc => g3 c (flat12_mem hrr hc)⟩
    intro i hi j hj k hk
    have := g2 i hi _ (RV2.flat_lt hj hk)
    rw [flat12_cell hrr] at this
    rw [this]
    dsimp only
    rw [← h2, RV2.flat_div hk, RV2.flat_mod hk]
  · simp only [if_neg h]
    rw [← h0, ← h1, ← h2]
    obtain ⟨m', g1, g2, g3⟩ := loop3_cells r.n0 r.n1 r.n2 r.cell (fun i j k => op (R i j k) (X i j k)) body m hr
      (fun i hi j hj k hk => by rw [hR i hi j hj k hk]; rfl)
      (by
        intro i hi j hj k hk m' hm'
        refine hb i j k m' _ _ ?_ ?_
        · rw [hm' _ fun i' hi' j' hj' k' hk' hne e => hne (hr i' hi' j' hj' k' hk' i hi j hj k hk e.symm)]
          exact hR i hi j hj k hk
        · rw [hm' _ fun i' hi' j' hj' k' hk' hne e => hne (hx i' hi' j' hj' k' hk' i (h0 ▸ hi) j (h1 ▸ hj) k (h2 ▸ hk) e.symm)]
          exact hX i (h0 ▸ hi) j (h1 ▸ hj) k (h2 ▸ hk))
    exact ⟨m', g1, g2, fun c hc => g3 c (not_mem.1 hc)⟩

theorem whole_copy (f g : RV2) (hf : f.isRegular = true) (hg : g.isRegular = true) (h0 : f.n0 = g.n0) (h1 : f.n1 = g.n1) (ha : f.Apart g)
    (m : Buf α) (F G : Nat → Nat → α) (hF : f.Has m F) (hG : g.Has m G) :
    ∃ m', stdCopy m g.arr (f.n0 * f.n1) f.arr = .ok m' ∧ f.Becomes m m' G := by
  obtain ⟨m', e, h⟩ := C133_set f g h0 h1 (RV2.reg_inj hf) ha m F G hF hG
  refine ⟨m', ?_, h⟩
  rw [← e, RV2.set, h0, h1]
  simp [hf, hg]

theorem whole_add [Add α] (f g : RV2) (hf : f.isRegular = true) (hg : g.isRegular = true) (h0 : f.n0 = g.n0) (h1 : f.n1 = g.n1)
    (hc : f.Compat g) (m : Buf α) (F G : Nat → Nat → α) (hF : f.Has m F) (hG : g.Has m G) :
    ∃ m', stdAdd (· + ·) m g.arr (f.n0 * f.n1) f.arr = .ok m' ∧ f.Becomes m m' fun i j => F i j + G i j := by
  have hG' := (RV2.reg_has hg m G).1 hG
  have hF' := (RV2.reg_has hf m F).1 hF
  rw [← h0, ← h1] at hG'
  obtain ⟨m', g1, g2, g3⟩ := stdAdd_ok (· + ·) m g.arr (f.n0 * f.n1) f.arr _ _ hF' hG' (RV2.reg_compat hf hg h1 h0 hc)
  exact ⟨m', g1, (RV2.reg_has hf m' _).2 g2, (RV2.reg_frame hf m m').2 g3⟩

theorem C234_set (r x : RV3) (h0 : r.n0 = x.n0) (h1 : r.n1 = x.n1) (h2 : r.n2 = x.n2) (hr : r.Inj) (hx : r.Apart x) (m : Buf α)
    (R X : Nat → Nat → Nat → α) (hR : r.Has m R) (hX : x.Has m X) : ∃ m', r.set x m = .ok m' ∧ r.Becomes m m' X := by
  obtain ⟨m', g1, g2⟩ := ew_core (fun _ b => b) (fun _ b => b) r x h0 h1 h2 hr m R X hR hX
    (fun m => stdCopy m x.arr (r.n0 * r.n1 * r.n2) r.arr) (fun i j k m => do
      let v ← m.read (x.cell i j k)
      m.write (r.cell i j k) v) hx.compat
    (fun f g hf hg e0 e1 e2 e3 e4 _ ha F G hF hG => by
      obtain ⟨m', w1, w2⟩ := whole_copy f g hf hg e0 e1 (ha hx) m F G hF hG
      exact ⟨m', by rw [← e2, ← e3, ← e4]; exact w1, w2⟩)
    (fun i j k m a b _ hb => by rw [read_ok hb, Res.ok_bind])
  exact ⟨m', g1, by simpa using g2⟩

theorem C234_add [Add α] (r x : RV3) (h0 : r.n0 = x.n0) (h1 : r.n1 = x.n1) (h2 : r.n2 = x.n2) (hr : r.Inj) (hx : r.Compat x) (m : Buf α)
    (R X : Nat → Nat → Nat → α) (hR : r.Has m R) (hX : x.Has m X) :
    ∃ m', r.add x m = .ok m' ∧ r.Becomes m m' fun i j k => R i j k + X i j k := by
  obtain ⟨m', g1, g2⟩ := ew_core (· + ·) (· + ·) r x h0 h1 h2 hr m R X hR hX
    (fun m => stdAdd (· + ·) m x.arr (r.n0 * r.n1 * r.n2) r.arr) (fun i j k m => do
      let v ← m.read (x.cell i j k)
      incCell m (r.cell i j k) v) hx
    (fun f g hf hg e0 e1 e2 e3 e4 hc _ F G hF hG => by
      obtain ⟨m', w1, w2⟩ := whole_add f g hf hg e0 e1 hc m F G hF hG
      exact ⟨m', by rw [← e2, ← e3, ← e4]; exact w1, w2⟩)
    (fun i j k m a b ha hb => by rw [read_ok hb, Res.ok_bind, incCell_ok ha])
  exact ⟨m', g1, by simpa using g2⟩

/-- Two 2×2×2 arrays, the second one transposed, shown as an array of the positions. -/
example : ∃ m', (RV3.mk 0 2 2 2 4 2 1).add ⟨8, 2, 2, 2, 4, 1, 2⟩ (Buf.ofList [1, 2, 3, 4, 5, 6, 7, 8, 10, 20, 30, 40, 50, 60, 70, 80]) = .ok m' ∧
    (List.range 8).map m' = [some (11 : Int), some 32, some 23, some 44, some 55, some 76, some 67, some 88] := ⟨_, rfl, rfl⟩

example : (RV3.mk 0 2 2 2 4 2 1).Inj ∧ (RV3.mk 8 2 2 2 4 1 2).Inj ∧ (RV3.mk 0 2 2 2 4 2 1).Apart ⟨8, 2, 2, 2, 4, 1, 2⟩ ∧
    (RV3.mk 0 2 2 2 4 2 1).Has (Buf.ofList [0, 1, 2, 3, 4, 5, 6, 7]) (fun i j k => 4 * i + 2 * j + k) := by
  refine ⟨RV3.reg_inj rfl, ?_, ?_, ?_⟩
  · intro i hi j hj k hk i' hi' j' hj' k' hk' e; simp [RV3.cell] at *; omega
  · intro i hi j hj k hk i' hi' j' hj' k' hk'; simp [RV3.cell] at *; omega
  · intro i hi j hj k hk
    have : i < 2 := hi; have : j < 2 := hj; have : k < 2 := hk
    interval_cases i <;> interval_cases j <;> interval_cases k <;> rfl

/-! ### C235 scaled addition -/

/-- `add(x,c)` adds `x`, not `c·x`, when both views are regular, and the scaled array otherwise.  Missing: the factor for regular views,
see `C235_scaled_fails`. -/
theorem C235_scaled_partial [Add α] [Mul α] (r x : RV3) (c : α) (h0 : r.n0 = x.n0) (h1 : r.n1 = x.n1) (h2 : r.n2 = x.n2) (hr : r.Inj)
    (hx : r.Compat x) (m : Buf α) (R X : Nat → Nat → Nat → α) (hR : r.Has m R) (hX : x.Has m X) :
    ∃ m', r.addScaled x c m = .ok m' ∧
      r.Becomes m m' fun i j k => if r.isRegular = true ∧ x.isRegular = true then R i j k + X i j k else R i j k + X i j k * c := by
  obtain ⟨m', g1, g2⟩ := ew_core (fun a b => a + b * c) (· + ·) r x h0 h1 h2 hr m R X hR hX
    (fun m => stdAdd (· + ·) m x.arr (r.n0 * r.n1 * r.n2) r.arr) (fun i j k m => do
      let v ← m.read (x.cell i j k)
      incCell m (r.cell i j k) (v * c)) hx
    (fun f g hf hg e0 e1 e2 e3 e4 hc _ F G hF hG => by
      obtain ⟨m', w1, w2⟩ := whole_add f g hf hg e0 e1 hc m F G hF hG
      exact ⟨m', by rw [← e2, ← e3, ← e4]; exact w1, w2⟩)
    (fun i j k m a b ha hb => by rw [read_ok hb, Res.ok_bind, incCell_ok ha])
  refine ⟨m', g1, ?_⟩
  have : r.fast x = true ↔ r.isRegular = true ∧ x.isRegular = true := by
    rw [fast_iff]; simp [h0, h1, h2]
  simpa only [this] using g2

/-- 0 plus 5 times 1 is 1. -/
theorem C235_scaled_fails : ∃ (r x : RV3) (m m' : Buf Int), r.n0 = x.n0 ∧ r.n1 = x.n1 ∧ r.n2 = x.n2 ∧ r.isRegular = true ∧
    x.isRegular = true ∧ m (r.cell 0 0 0) = some 0 ∧ m (x.cell 0 0 0) = some 1 ∧ r.addScaled x 5 m = .ok m' ∧
    m' (r.cell 0 0 0) = some 1 :=
  ⟨⟨0, 1, 1, 1, 1, 1, 1⟩, ⟨1, 1, 1, 1, 1, 1, 1⟩, Buf.ofList [0, 1], _, rfl, rfl, rfl, rfl, rfl, rfl, rfl, rfl, by decide⟩

/-- Strided views: the factor is used. -/
example : ∃ m', (RV3.mk 0 1 1 2 4 2 1).addScaled ⟨2, 1, 1, 2, 4, 4, 2⟩ 10 (Buf.ofList [1, 2, 3, 0, 4]) = .ok m' ∧
    m' 0 = some (31 : Int) ∧ m' 1 = some 42 := ⟨_, rfl, rfl, rfl⟩

/-! ### C236 sizes are not compared -/

/-- Adding a 1×1×2 array to a 1×1×1 one changes a cell that is not in the view. -/
theorem C236_sizes_fails : ∃ (r x : RV3) (m m' : Buf Int) (c : Nat), x.n2 ≠ r.n2 ∧ r.isRegular = true ∧ x.isRegular = true ∧ r.Apart x ∧
    ¬ r.Mem c ∧ ¬ x.Mem c ∧ r.add x m = .ok m' ∧ m' c ≠ m c := by
  refine ⟨⟨0, 1, 1, 1, 1, 1, 1⟩, ⟨2, 1, 1, 2, 2, 2, 1⟩, Buf.ofList [0, 7, 1, 1], _, 1, by decide, rfl, rfl, ?_, ?_, ?_, rfl, by decide⟩
  · intro i hi j hj k hk i' hi' j' hj' k' hk'; simp [RV3.cell] at *; omega
  · rw [not_mem]; intro i hi j hj k hk; simp [RV3.cell] at *; omega
  · rw [not_mem]; intro i hi j hj k hk; simp [RV3.cell] at *; omega

/-- A smaller array is added to the corner of the view.  Missing: that other sizes are refused, see `C236_sizes_fails`. -/
theorem C236_corner_partial [Add α] (r x : RV3) (h0 : x.n0 ≤ r.n0) (h1 : x.n1 ≤ r.n1) (h2 : x.n2 ≤ r.n2)
    (hn : ¬ (x.n0 = r.n0 ∧ x.n1 = r.n1 ∧ x.n2 = r.n2)) (hr : r.Inj) (hx : r.Compat x)
    (m : Buf α) (R X : Nat → Nat → Nat → α) (hR : r.Has m R) (hX : x.Has m X) :
    ∃ m', r.add x m = .ok m' ∧
      r.Becomes m m' fun i j k => if i < x.n0 ∧ j < x.n1 ∧ k < x.n2 then R i j k + X i j k else R i j k := by
  have hf : ¬ r.fast x = true := fun h => hn (fast_iff.1 h).1
  unfold RV3.add
  rw [if_neg hf]
  obtain ⟨m', g1, g2, g3⟩ := loop3_cells x.n0 x.n1 x.n2 r.cell (fun i j k => R i j k + X i j k) (fun i j k m => do
      let v ← m.read (x.cell i j k)
      incCell m (r.cell i j k) v) m
    (fun i hi j hj k hk i' hi' j' hj' k' hk' e => hr i (by omega) j (by omega) k (by omega) i' (by omega) j' (by omega) k' (by omega) e)
    (fun i hi j hj k hk => by rw [hR i (by omega) j (by omega) k (by omega)]; rfl)
    (by
      intro i hi j hj k hk m' hm'
      have e1 : m' (r.cell i j k) = some (R i j k) := by
        rw [hm' _ fun i' hi' j' hj' k' hk' hne e => hne (hr i' (by omega) j' (by omega) k' (by omega) i (by omega) j (by omega) k (by omega) e.symm)]
        exact hR i (by omega) j (by omega) k (by omega)
      have e2 : m' (x.cell i j k) = some (X i j k) := by
        rw [hm' _ fun i' hi' j' hj' k' hk' hne e => hne (hx i' (by omega) j' (by omega) k' (by omega) i hi j hj k hk e.symm)]
        exact hX i hi j hj k hk
      rw [read_ok e2, Res.ok_bind, incCell_ok e1])
  refine ⟨m', g1, ?_, fun c hc => g3 c fun i hi j hj k hk => not_mem.1 hc i (by omega) j (by omega) k (by omega)⟩
  intro i hi j hj k hk
  by_cases c : i < x.n0 ∧ j < x.n1 ∧ k < x.n2
  · simp only [if_pos c]; exact g2 i c.1 j c.2.1 k c.2.2
  · simp only [if_neg c]
    rw [g3 _ ?_]; · exact hR i hi j hj k hk
    intro i' hi' j' hj' k' hk' e
    obtain ⟨rfl, rfl, rfl⟩ := hr i hi j hj k hk i' (by omega) j' (by omega) k' (by omega) e
    exact c ⟨hi', hj', hk'⟩

/-! ### C237 batched products -/

/-- `add_mprod(x,y)` adds `x·y_b` to every slice `b`. -/
theorem C237_mprod [NonUnitalNonAssocSemiring α] (r : RV3) (x : RV2) (y : RV3) (h0 : r.n0 = y.n0) (h1 : r.n1 = x.n0) (h2 : r.n2 = y.n2)
    (hI : x.n1 = y.n1) (hr : r.Inj) (hx : r.Apart2 x) (hy : r.Apart y) (m : Buf α) (R Y : Nat → Nat → Nat → α) (X : Nat → Nat → α)
    (hR : r.Has m R) (hX : x.Has m X) (hY : y.Has m Y) :
    ∃ m', r.addMprod x y m = .ok m' ∧
      r.Becomes m m' fun b i k => R b i k + ((List.range x.n1).map fun j => X i j * Y b j k).sum := by
  obtain ⟨m', g1, g2, g3⟩ := loop_regions r.n0 (fun b m => (r.slice0 b).addMatmulAA x (y.slice0 b) m)
    (fun b c => ∃ i, i < r.n1 ∧ ∃ k, k < r.n2 ∧ c = r.cell b i k)
    (fun b m' => ∀ i, i < r.n1 → ∀ k, k < r.n2 → m' (r.cell b i k) = some (R b i k + ((List.range x.n1).map fun j => X i j * Y b j k).sum)) m
    (by
      rintro b hb b' hb' hne c ⟨i, hi, k, hk, rfl⟩ ⟨i', hi', k', hk', e⟩
      exact hne (hr b hb i hi k hk b' hb' i' hi' k' hk' e).1)
    (fun b _ m1 m2 h H i hi k hk => by rw [h _ ⟨i, hi, k, hk, rfl⟩]; exact H i hi k hk)
    (by
      intro b hb m1 hm1
      obtain ⟨m2, f1, f2, f3⟩ := C134_AA (r.slice0 b) x (y.slice0 b) h1.symm h2.symm hI.symm
        (by
          intro i hi k hk i' hi' k' hk' e
          rw [slice0_cell, slice0_cell] at e
          exact (hr b hb i hi k hk b hb i' hi' k' hk' e).2)
        (by intro i hi k hk i' hi' k' hk' e; rw [slice0_cell] at e; exact hx b hb i hi k hk i' hi' k' hk' e)
        (by intro i hi k hk i' hi' k' hk' e; rw [slice0_cell, slice0_cell] at e
            exact hy b hb i hi k hk b (h0 ▸ hb) i' hi' k' hk' e)
        m1 (R b) X (Y b)
        (by
          intro i hi k hk
          rw [slice0_cell, hm1 _ ?_]; · exact hR b hb i hi k hk
          rintro b' hb' hne ⟨i', hi', k', hk', e⟩
          exact hne (hr b hb i hi k hk b' hb' i' hi' k' hk' e).1.symm)
        (by
          intro i hi k hk
          rw [hm1 _ ?_]; · exact hX i hi k hk
          rintro b' hb' hne ⟨i', hi', k', hk', e⟩
          exact hx b' hb' i' hi' k' hk' i hi k hk e.symm)
        (by
          intro i hi k hk
          rw [slice0_cell, hm1 _ ?_]; · exact hY b (h0 ▸ hb) i hi k hk
          rintro b' hb' hne ⟨i', hi', k', hk', e⟩
          exact hy b' hb' i' hi' k' hk' b (h0 ▸ hb) i hi k hk e.symm)
      refine ⟨m2, f1, fun i hi k hk => ?_, fun c hc => f3 c fun i hi k hk e => hc ⟨i, hi, k, hk, by rw [e, slice0_cell]⟩⟩
      have := f2 i hi k hk
      rwa [slice0_cell] at this)
  refine ⟨m', ?_, g2, fun c hc => g3 c ?_⟩
  · unfold RV3.addMprod
    simp only [h0, h1, h2, hI, decide_true, Res.assrt_true, Res.ok_bind] at g1 ⊢
    exact g1
  · rintro b hb ⟨i, hi, k, hk, e⟩
    exact hc ⟨b, hb, i, hi, k, hk, e⟩

theorem C237_refuses [Zero α] [Add α] [Mul α] (r : RV3) (x : RV2) (y : RV3)
    (h : ¬ (r.n0 = y.n0 ∧ r.n1 = x.n0 ∧ r.n2 = y.n2 ∧ x.n1 = y.n1)) (m : Buf α) : r.addMprod x y m = .throw := by
  unfold RV3.addMprod
  by_cases h0 : r.n0 = y.n0
  · by_cases h1 : r.n1 = x.n0
    · by_cases h2 : r.n2 = y.n2
      · have h3 : ¬ x.n1 = y.n1 := fun h3 => h ⟨h0, h1, h2, h3⟩
        simp [h0, h1, h2, h3]
      · simp [h0, h1, h2]
    · simp [h0, h1]
  · simp [h0]

/-- Two slices: `r_b = x·y_b`. -/
example : ∃ m', (RV3.mk 0 2 1 1 1 1 1).addMprod ⟨2, 1, 2, 2, 1⟩ ⟨4, 2, 2, 1, 2, 1, 1⟩ (Buf.ofList [0, 0, 2, 3, 5, 7, 11, 13]) = .ok m' ∧
    m' 0 = some (31 : Int) ∧ m' 1 = some 61 := ⟨_, rfl, rfl, rfl⟩

example : (RV3.mk 0 2 1 1 1 1 1).addMprod ⟨2, 1, 3, 2, 1⟩ ⟨4, 2, 2, 1, 2, 1, 1⟩ (Buf.ofList [(0 : Int)]) = .throw := rfl

/-! ### C238 the older product -/

/-- For cubes `add_matmul_AA(x,y)` adds `x_b·y` to every slice.  Missing: other sizes, see the two `_fails` theorems. -/
theorem C238_cube_partial [NonUnitalNonAssocSemiring α] (r x : RV3) (y : RV2) (n : Nat) (h0 : r.n0 = n) (h1 : r.n1 = n) (h2 : r.n2 = n)
    (hx0 : x.n0 = n) (hx1 : x.n1 = n) (hy1 : y.n1 = n) (hI : y.n0 = x.n2) (hr : r.Inj) (hx : r.Apart x) (hy : r.Apart2 y) (m : Buf α)
    (R X : Nat → Nat → Nat → α) (Y : Nat → Nat → α) (hR : r.Has m R) (hX : x.Has m X) (hY : y.Has m Y) :
    ∃ m', r.addMatmulAA x y m = .ok m' ∧
      r.Becomes m m' fun c a b => R c a b + ((List.range x.n2).map fun i => X c a i * Y i b).sum := by
  obtain ⟨m', g1, g2, g3⟩ := loop3_cells r.n0 r.n1 r.n2 r.cell
    (fun c a b => R c a b + ((List.range x.n2).map fun i => X c a i * Y i b).sum) (fun c a b m => do
      let t ← RV2.dotLoop x.n2 (fun i => x.cell c a i) (fun i => y.cell i b) m
      incCell m (r.cell c a b) t) m hr (fun i hi j hj k hk => by rw [hR i hi j hj k hk]; rfl)
    (by
      intro c hc a ha b hb m' hm'
      have e : m' (r.cell c a b) = some (R c a b) := by
        rw [hm' _ fun i' hi' j' hj' k' hk' hne e => hne (hr i' hi' j' hj' k' hk' c hc a ha b hb e.symm)]
        exact hR c hc a ha b hb
      rw [dotLoop_ok x.n2 _ _ m' (fun i => X c a i) (fun i => Y i b)
        (fun i hi => by
          rw [hm' _ fun i' hi' j' hj' k' hk' _ e => hx i' hi' j' hj' k' hk' c (by omega) a (by omega) i hi e.symm]
          exact hX c (by omega) a (by omega) i hi)
        (fun i hi => by
          rw [hm' _ fun i' hi' j' hj' k' hk' _ e => hy i' hi' j' hj' k' hk' i (by omega) b (by omega) e.symm]
          exact hY i (by omega) b (by omega)), Res.ok_bind, incCell_ok e])
  refine ⟨m', ?_, g2, fun c hc => g3 c (not_mem.1 hc)⟩
  unfold RV3.addMatmulAA
  simp only [h0, h1, h2, hx0, hx1, hy1, hI, decide_true, Res.assrt_true, Res.ok_bind] at g1 ⊢
  exact g1

/-- One 2×1 matrix times a 1×2 matrix: the second row of the product is not added. -/
theorem C238_rows_fails : ∃ (r x : RV3) (y : RV2) (m m' : Buf Int), r.n0 = x.n0 ∧ r.n1 = x.n1 ∧ r.n2 = y.n1 ∧ y.n0 = x.n2 ∧
    r.isRegular = true ∧ r.Apart x ∧ r.Apart2 y ∧ m (r.cell 0 1 0) = some 0 ∧ m (x.cell 0 1 0) = some 2 ∧ m (y.cell 0 0) = some 3 ∧
    r.addMatmulAA x y m = .ok m' ∧ m' (r.cell 0 1 0) = some 0 := by
  refine ⟨⟨0, 1, 2, 2, 4, 2, 1⟩, ⟨4, 1, 2, 1, 2, 1, 1⟩, ⟨6, 1, 2, 2, 1⟩, Buf.ofList [0, 0, 0, 0, 1, 2, 3, 4], _, rfl, rfl, rfl, rfl, rfl,
    ?_, ?_, rfl, rfl, rfl, rfl, by decide⟩
  · intro i hi j hj k hk i' hi' j' hj' k' hk'; simp [RV3.cell] at *; omega
  · intro i hi j hj k hk i' hi' j' hj'; simp [RV3.cell, RV2.cell] at *; omega

/-- A product whose matrices are not square is refused, though the sizes fit. -/
theorem C238_refuses_fails [Zero α] [Add α] [Mul α] (r x : RV3) (y : RV2) (_ : r.n0 = x.n0 ∧ r.n1 = x.n1 ∧ r.n2 = y.n1 ∧ y.n0 = x.n2)
    (h : r.n1 ≠ r.n2) (m : Buf α) : r.addMatmulAA x y m = .throw := by
  have : ¬ y.n1 = r.n1 := by omega
  unfold RV3.addMatmulAA
  by_cases h0 : r.n0 = x.n0
  · by_cases h1 : x.n1 = r.n1
    · simp [h0, h1, this]
    · simp [h0, h1]
  · simp [h0]

/-- A 2-cube: two 2×2 products. -/
example : ∃ m', (RV3.mk 0 2 2 2 4 2 1).addMatmulAA ⟨8, 2, 2, 1, 2, 1, 1⟩ ⟨12, 1, 2, 2, 1⟩
    (Buf.ofList [0, 0, 0, 0, 0, 0, 0, 0, 1, 2, 3, 4, 10, 20]) = .ok m' ∧
    (List.range 8).map m' = [some (10 : Int), some 20, some 20, some 40, some 30, some 60, some 40, some 80] := ⟨_, rfl, rfl⟩

/-! ### C239 sums and averages over axes -/

theorem into_core [AddCommMonoid α] (r : RV2) (n : Nat) (p : Nat → Nat → Nat → Nat) (g : α → α) (hr : r.Inj) (m : Buf α)
    (R : Nat → Nat → α) (A : Nat → Nat → Nat → α) (hR : r.Has m R)
    (hp : ∀ i, i < r.n0 → ∀ j, j < r.n1 → ∀ l, l < n → m (p i j l) = some (A i j l) ∧
      ∀ i', i' < r.n0 → ∀ j', j' < r.n1 → p i j l ≠ r.cell i' j') :
    ∃ m', loop r.n0 m (fun i m => loop r.n1 m fun j m => do
        let t ← RV2.sumLoop n (p i j) m
        incCell m (r.cell i j) (g t)) = .ok m' ∧ r.Becomes m m' fun i j => R i j + g ((List.range n).map (A i j)).sum := by
  obtain ⟨m', g1, g2⟩ := loop2_cells r.n0 r.n1 r.cell (fun i j => R i j + g ((List.range n).map (A i j)).sum) (fun i j m => do
      let t ← RV2.sumLoop n (p i j) m
      incCell m (r.cell i j) (g t)) m hr (fun i hi j hj => by rw [hR i hi j hj]; rfl)
    (by
      intro i hi j hj m' hm'
      have e : m' (r.cell i j) = some (R i j) := by
        rw [hm' _ fun k hk l hl hkl e => hkl (hr k hk l hl i hi j hj e.symm)]; exact hR i hi j hj
      rw [sumLoop_ok n (p i j) m' (A i j) fun l hl => by
        rw [hm' _ fun i' hi' j' hj' _ e => (hp i hi j hj l hl).2 i' hi' j' hj' e]; exact (hp i hi j hj l hl).1, Res.ok_bind, incCell_ok e])
  exact ⟨m', g1, g2⟩

/-- `sum0_into`, `avg0_into`. -/
theorem C239_sum0 [AddCommMonoid α] (dv : α → Nat → α) (v : RV3) (r : RV2) (h0 : r.n0 = v.n1) (h1 : r.n1 = v.n2) (hr : r.Inj)
    (hv : v.Apart2 r) (m : Buf α) (R : Nat → Nat → α) (X : Nat → Nat → Nat → α) (hR : r.Has m R) (hX : v.Has m X) :
    ∃ m', v.sum0Into dv r m = .ok m' ∧ r.Becomes m m' fun j k => R j k + dv ((List.range v.n0).map fun i => X i j k).sum v.n0 := by
  obtain ⟨m', g1, g2⟩ := into_core r v.n0 (fun j k i => v.cell i j k) (fun t => dv t v.n0) hr m R (fun j k i => X i j k) hR
    (fun j hj k hk i hi => ⟨hX i hi j (h0 ▸ hj) k (h1 ▸ hk), fun a ha b hb => hv i hi j (h0 ▸ hj) k (h1 ▸ hk) a ha b hb⟩)
  refine ⟨m', ?_, g2⟩
  unfold RV3.sum0Into
  simp only [h0, h1, decide_true, Res.assrt_true, Res.ok_bind] at g1 ⊢
  exact g1

/-- `sum1_into`, `avg1_into`. -/
theorem C239_sum1 [AddCommMonoid α] (dv : α → Nat → α) (v : RV3) (r : RV2) (h0 : r.n0 = v.n0) (h1 : r.n1 = v.n2) (hr : r.Inj)
    (hv : v.Apart2 r) (m : Buf α) (R : Nat → Nat → α) (X : Nat → Nat → Nat → α) (hR : r.Has m R) (hX : v.Has m X) :
    ∃ m', v.sum1Into dv r m = .ok m' ∧ r.Becomes m m' fun i k => R i k + dv ((List.range v.n1).map fun j => X i j k).sum v.n1 := by
  obtain ⟨m', g1, g2⟩ := into_core r v.n1 (fun i k j => v.cell i j k) (fun t => dv t v.n1) hr m R (fun i k j => X i j k) hR
    (fun i hi k hk j hj => ⟨hX i (h0 ▸ hi) j hj k (h1 ▸ hk), fun a ha b hb => hv i (h0 ▸ hi) j hj k (h1 ▸ hk) a ha b hb⟩)
  refine ⟨m', ?_, g2⟩
  unfold RV3.sum1Into
  simp only [h0, h1, decide_true, Res.assrt_true, Res.ok_bind] at g1 ⊢
  exact g1

/-- `sum2_into`, `avg2_into`. -/
theorem C239_sum2 [AddCommMonoid α] (dv : α → Nat → α) (v : RV3) (r : RV2) (h0 : r.n0 = v.n0) (h1 : r.n1 = v.n1) (hr : r.Inj)
    (hv : v.Apart2 r) (m : Buf α) (R : Nat → Nat → α) (X : Nat → Nat → Nat → α) (hR : r.Has m R) (hX : v.Has m X) :
    ∃ m', v.sum2Into dv r m = .ok m' ∧ r.Becomes m m' fun i j => R i j + dv ((List.range v.n2).map fun k => X i j k).sum v.n2 := by
  obtain ⟨m', g1, g2⟩ := into_core r v.n2 (fun i j k => v.cell i j k) (fun t => dv t v.n2) hr m R (fun i j k => X i j k) hR
    (fun i hi j hj k hk => ⟨hX i (h0 ▸ hi) j (h1 ▸ hj) k hk, fun a ha b hb => hv i (h0 ▸ hi) j (h1 ▸ hj) k hk a ha b hb⟩)
  refine ⟨m', ?_, g2⟩
  unfold RV3.sum2Into
  simp only [h0, h1, decide_true, Res.assrt_true, Res.ok_bind] at g1 ⊢
  exact g1

/-- `sum01_into`, `avg01_into`. -/
theorem C239_sum01 [AddCommMonoid α] (dv : α → Nat → α) (v : RV3) (r : RV1) (h0 : r.n0 = v.n2) (hr : r.Inj)
    (hv : v.Apart1 r) (m : Buf α) (R : Nat → α) (X : Nat → Nat → Nat → α) (hR : r.Has m R) (hX : v.Has m X) :
    ∃ m', v.sum01Into dv r m = .ok m' ∧ r.Becomes m m' fun k => R k +
      dv (dv ((List.range v.n0).map fun i => ((List.range v.n1).map fun j => X i j k).sum).sum v.n0) v.n1 := by
  obtain ⟨m', g1, g2⟩ := loop_cells r.n0 r.cell (fun k => R k +
      dv (dv ((List.range v.n0).map fun i => ((List.range v.n1).map fun j => X i j k).sum).sum v.n0) v.n1) (fun k m => do
      let t ← loop v.n0 (0 : α) fun i t => loop v.n1 t fun j t => do
        let a ← m.read (v.cell i j k)
        .ok (t + a)
      incCell m (r.cell k) (dv (dv t v.n0) v.n1)) m hr (fun k hk => by rw [hR k hk]; rfl)
    (by
      intro k hk m' hm'
      have e : m' (r.cell k) = some (R k) := by
        rw [hm' _ fun l hl hlk e => hlk (hr l hl k hk e.symm)]; exact hR k hk
      rw [sum_strided v.n0 v.n1 m' (fun i j => v.cell i j k) (fun i j => X i j k) fun i hi j hj => by
        rw [hm' _ fun l hl _ e => hv i hi j hj k (h0 ▸ hk) l hl e]; exact hX i hi j hj k (h0 ▸ hk), Res.ok_bind, incCell_ok e])
  refine ⟨m', ?_, g2⟩
  unfold RV3.sum01Into
  simp only [h0, decide_true, Res.assrt_true, Res.ok_bind] at g1 ⊢
  exact g1

/-- Results of other sizes are refused. -/
theorem C239_refuses [Zero α] [Add α] (dv : α → Nat → α) (v : RV3) (r : RV2) (r1 : RV1) (m : Buf α) :
    (¬ (r.n0 = v.n1 ∧ r.n1 = v.n2) → v.sum0Into dv r m = .throw) ∧ (¬ (r.n0 = v.n0 ∧ r.n1 = v.n2) → v.sum1Into dv r m = .throw) ∧
    (¬ (r.n0 = v.n0 ∧ r.n1 = v.n1) → v.sum2Into dv r m = .throw) ∧ (r1.n0 ≠ v.n2 → v.sum01Into dv r1 m = .throw) := by
  have key : ∀ (p q : Prop) [Decidable p] [Decidable q] (k : Res (Buf α)), ¬ (p ∧ q) →
      (do Res.assrt (decide p); Res.assrt (decide q); k) = .throw := by
    intro p q _ _ k h
    by_cases hp : p
    · have hq : ¬ q := fun hq => h ⟨hp, hq⟩
      simp [hp, hq]
    · simp [hp]
  refine ⟨key _ _ _, key _ _ _, key _ _ _, fun h => ?_⟩
  unfold RV3.sum01Into
  simp [h]

example : ∃ m', (RV3.mk 0 2 2 2 4 2 1).sum1Into (fun t _ => t) ⟨8, 2, 2, 2, 1⟩ (Buf.ofList [1, 2, 3, 4, 5, 6, 7, 8, 0, 0, 0, 100]) = .ok m' ∧
    ([8, 9, 10, 11].map m') = [some (4 : Int), some 6, some 12, some 114] := ⟨_, rfl, rfl⟩

/-- Averages, with integer division. -/
example : ∃ m', (RV3.mk 0 2 2 2 4 2 1).sum01Into (fun t n => t / (n : Int)) ⟨8, 2, 1⟩ (Buf.ofList [1, 2, 3, 4, 5, 6, 7, 8, 0, 0]) = .ok m' ∧
    ([8, 9].map m') = [some 4, some 5] := ⟨_, rfl, rfl⟩

/-! ### C240 reductions in place -/

/-- `reduce0_destructively`: slice 0 becomes the sum of all slices and no cell outside the view changes.
Missing: one slice, and views that are not regular, see below. -/
theorem C240_reduce0_partial [AddCommMonoid α] (v : RV3) (hv : v.isRegular = true) (hn : 2 ≤ v.n0) (m : Buf α) (X : Nat → Nat → Nat → α)
    (hX : v.Has m X) : ∃ m', v.reduce0 m = .ok m' ∧
      (∀ j, j < v.n1 → ∀ k, k < v.n2 → m' (v.cell 0 j k) = some ((List.range v.n0).map fun i => X i j k).sum) ∧
      ∀ c, ¬ v.Mem c → m' c = m c := by
  obtain ⟨m', h1, h2, h3⟩ := C140_reduce0_partial v.flat12 (Or.inl ⟨flat12_regular hv, hn⟩) m _ (flat12_has hv hX)
  refine ⟨m', by rw [RV3.reduce0, fuse12_eq hv, Res.ok_bind, h1], ?_, fun c hc => h3 c (flat12_mem hv hc)⟩
  intro j hj k hk
  have := h2 _ (RV2.flat_lt hj hk)
  rw [flat12_cell hv] at this
  rw [this, RV2.flat_div hk, RV2.flat_mod hk]
  rfl

/-- `reduce1_destructively`, the same for the middle axis.  Missing: regular views with one row per slice, other views with none. -/
theorem C240_reduce1_partial [AddCommMonoid α] (v : RV3)
    (hn : v.isRegular = true ∧ 2 ≤ v.n1 ∨ v.isRegular = false ∧ 1 ≤ v.n1 ∧ v.Inj) (m : Buf α) (X : Nat → Nat → Nat → α)
    (hX : v.Has m X) : ∃ m', v.reduce1 m = .ok m' ∧
      (∀ i, i < v.n0 → ∀ k, k < v.n2 → m' (v.cell i 0 k) = some ((List.range v.n1).map fun j => X i j k).sum) ∧
      ∀ c, ¬ v.Mem c → m' c = m c := by
  rcases hn with ⟨hv, hn⟩ | ⟨hv, hn, hi⟩
  · have hinj := reg_inj hv
    have hsr : ∀ i, (v.slice0 i).isRegular = true := by
      obtain ⟨h1, h2, -⟩ := RV3.isRegular_iff.1 hv
      exact fun i => RV2.isRegular_iff.2 ⟨h1, h2⟩
    obtain ⟨m', h1, h2, h3⟩ := loop_regions v.n0 (fun i m => (v.slice0 i).reduce0 m)
      (fun i c => ∃ j, j < v.n1 ∧ ∃ k, k < v.n2 ∧ c = v.cell i j k)
      (fun i m => ∀ k, k < v.n2 → m (v.cell i 0 k) = some ((List.range v.n1).map fun j => X i j k).sum) m
      (by
        rintro i hi i' hi' hne c ⟨j, hj, k, hk, rfl⟩ ⟨j', hj', k', hk', e⟩
        exact hne (hinj i hi j hj k hk i' hi' j' hj' k' hk' e).1)
      (fun i _ m m' h hp k hk => by rw [h _ ⟨0, by omega, k, hk, rfl⟩, hp k hk])
      (by
        intro i hi m1 hm1
        obtain ⟨m', g1, g2, g3⟩ := C140_reduce0_partial (v.slice0 i) (Or.inl ⟨hsr i, hn⟩) m1 (X i) (fun j hj k hk => by
          rw [slice0_cell, hm1 _ fun i' hi' hne => by
            rintro ⟨j', hj', k', hk', e⟩
            exact hne (hinj i hi j hj k hk i' hi' j' hj' k' hk' e).1.symm]
          exact hX i hi j hj k hk)
        refine ⟨m', g1, fun k hk => ?_, fun c hc => g3 c fun j hj k hk e => hc ⟨j, hj, k, hk, by rw [e, slice0_cell]⟩⟩
        have := g2 k hk
        rwa [slice0_cell] at this)
    refine ⟨m', by rw [RV3.reduce1, if_pos hv, h1], h2, fun c hc => h3 c fun i hi => ?_⟩
    rintro ⟨j, hj, k, hk, e⟩
    exact hc ⟨i, hi, j, hj, k, hk, e⟩
  · obtain ⟨m', h1, h2, h3⟩ := loop2_cells v.n0 v.n2 (fun i k => v.cell i 0 k) (fun i k => ((List.range v.n1).map fun j => X i j k).sum)
      (fun i k m => do
        let t ← RV2.sumLoop v.n1 (fun j => v.cell i j k) m
        m.write (v.arr + (v.s0 * i + v.s2 * k)) t) m
      (fun i hi' k hk i' hi'' k' hk' e => by
        have := hi i hi' 0 hn k hk i' hi'' 0 hn k' hk' e
        exact ⟨this.1, this.2.2⟩)
      (fun i hi' k hk => by rw [hX i hi' 0 hn k hk]; rfl)
      (by
        intro i hi' k hk m' hm'
        rw [sumLoop_ok v.n1 _ m' (fun j => X i j k) fun j hj => by
          rw [hm' _ fun i' hi'' k' hk' hne e => hne (by
            have := hi i hi' j hj k hk i' hi'' 0 hn k' hk' e
            exact ⟨this.1.symm, this.2.2.symm⟩)]
          exact hX i hi' j hj k hk, Res.ok_bind]
        rw [RV3.cell]; simp)
    refine ⟨m', by rw [RV3.reduce1, hv]; exact h1, h2, fun c hc => h3 c fun i hi' k hk e => hc ⟨i, hi', 0, hn, k, hk, e⟩⟩

/-- `reduce2_destructively`, the same for the last axis.  Missing: one single cell, rows without cells, views that are not regular. -/
theorem C240_reduce2_partial [AddCommMonoid α] (v : RV3) (hv : v.isRegular = true) (hn : 2 ≤ v.n2 ∨ v.n2 = 1 ∧ v.n0 * v.n1 ≠ 1)
    (m : Buf α) (X : Nat → Nat → Nat → α) (hX : v.Has m X) : ∃ m', v.reduce2 m = .ok m' ∧
      (∀ i, i < v.n0 → ∀ j, j < v.n1 → m' (v.cell i j 0) = some ((List.range v.n2).map fun k => X i j k).sum) ∧
      ∀ c, ¬ v.Mem c → m' c = m c := by
  obtain ⟨s2, s1, s0⟩ := RV3.isRegular_iff.1 hv
  have hT : ∀ i j, v.flat01.transp.cell i j = v.flat01.cell j i := fun i j => (C138_transp v.flat01 i j).1
  have hnr : v.flat01.transp.isRegular = false := by
    rw [Bool.eq_false_iff]
    intro h
    obtain ⟨e1, e2⟩ := RV2.isRegular_iff.1 h
    have e1 : v.s1 = 1 := e1
    have e2 : v.s2 = v.n0 * v.n1 := e2
    rw [s1] at e1
    rw [s2] at e2
    omega
  have hfi := RV2.reg_inj (flat01_regular hv)
  obtain ⟨m', h1, h2, h3⟩ := C140_reduce0_partial v.flat01.transp (Or.inr ⟨hnr, by show 1 ≤ v.n2; omega, by
      intro i hi j hj k hk l hl e
      rw [hT, hT] at e
      have := hfi j hj i hi l hl k hk e
      exact ⟨this.2, this.1⟩⟩) m (fun k l => X (l / v.n1) (l % v.n1) k) (fun k hk l hl => by rw [hT]; exact flat01_has hv hX l hl k hk)
  refine ⟨m', by rw [RV3.reduce2, fuse01_eq hv, Res.ok_bind]; exact h1, ?_, fun c hc => h3 c fun k hk l hl => by
    rw [hT]; exact flat01_mem hv hc l hl k hk⟩
  intro i hi j hj
  have := h2 _ (RV2.flat_lt hi hj)
  rw [hT, flat01_cell hv] at this
  rw [this, RV2.flat_div hj, RV2.flat_mod hj]
  rfl

/-- Adding one slice of the reduced view to `r`. -/
theorem after_core [Add α] (v : RV3) (r w : RV2) (h0 : r.n0 = w.n0) (h1 : r.n1 = w.n1) (hr : r.Inj) (hv : v.Apart2 r)
    (hw : ∀ i, i < w.n0 → ∀ j, j < w.n1 → v.Mem (w.cell i j)) (m m1 : Buf α) (R S : Nat → Nat → α) (hR : r.Has m R) (hS : w.Has m1 S)
    (hf : ∀ c, ¬ v.Mem c → m1 c = m c) :
    ∃ m', r.add w m1 = .ok m' ∧ r.Has m' (fun i j => R i j + S i j) ∧
      ∀ c, ¬ v.Mem c → (∀ i, i < r.n0 → ∀ j, j < r.n1 → c ≠ r.cell i j) → m' c = m c := by
  have hap : ∀ i, i < r.n0 → ∀ j, j < r.n1 → ¬ v.Mem (r.cell i j) := by
    rintro i hi j hj ⟨a, ha, b, hb, c, hc, e⟩
    exact hv a ha b hb c hc i hi j hj e.symm
  obtain ⟨m', g1, g2, g3⟩ := C133_add r w h0 h1 hr
    (fun i hi j hj k hk l hl e => absurd (hw k hk l hl) (e ▸ hap i hi j hj)) m1 R S
    (fun i hi j hj => by rw [hf _ (hap i hi j hj)]; exact hR i hi j hj) hS
  exact ⟨m', g1, g2, fun c hc hc' => by rw [g3 c hc', hf c hc]⟩

/-- `reduce0_destructively_into(r)`.  Missing: as for `reduce0_destructively`. -/
theorem C240_reduce0Into_partial [AddCommMonoid α] (v : RV3) (hv : v.isRegular = true) (hn : 2 ≤ v.n0) (r : RV2) (h0 : r.n0 = v.n1)
    (h1 : r.n1 = v.n2) (hr : r.Inj) (ha : v.Apart2 r) (m : Buf α) (X : Nat → Nat → Nat → α) (R : Nat → Nat → α) (hX : v.Has m X)
    (hR : r.Has m R) : ∃ m', v.reduce0Into r m = .ok m' ∧
      r.Has m' (fun j k => R j k + ((List.range v.n0).map fun i => X i j k).sum) ∧
      ∀ c, ¬ v.Mem c → (∀ i, i < r.n0 → ∀ j, j < r.n1 → c ≠ r.cell i j) → m' c = m c := by
  obtain ⟨m1, g1, g2, g3⟩ := C240_reduce0_partial v hv hn m X hX
  obtain ⟨m', k1, k2⟩ := after_core v r (v.slice0 0) h0 h1 hr ha
    (fun j hj k hk => ⟨0, by omega, j, hj, k, hk, slice0_cell v 0 j k⟩) m m1 R _ hR (fun j hj k hk => by rw [slice0_cell]; exact g2 j hj k hk) g3
  exact ⟨m', by rw [RV3.reduce0Into, g1, Res.ok_bind, k1], k2⟩

/-- `reduce1_destructively_into(r)`.  Missing: as for `reduce1_destructively`. -/
theorem C240_reduce1Into_partial [AddCommMonoid α] (v : RV3)
    (hn : v.isRegular = true ∧ 2 ≤ v.n1 ∨ v.isRegular = false ∧ 1 ≤ v.n1 ∧ v.Inj) (r : RV2) (h0 : r.n0 = v.n0)
    (h1 : r.n1 = v.n2) (hr : r.Inj) (ha : v.Apart2 r) (m : Buf α) (X : Nat → Nat → Nat → α) (R : Nat → Nat → α) (hX : v.Has m X)
    (hR : r.Has m R) : ∃ m', v.reduce1Into r m = .ok m' ∧
      r.Has m' (fun i k => R i k + ((List.range v.n1).map fun j => X i j k).sum) ∧
      ∀ c, ¬ v.Mem c → (∀ i, i < r.n0 → ∀ j, j < r.n1 → c ≠ r.cell i j) → m' c = m c := by
  have hn' : 0 < v.n1 := by rcases hn with h | h <;> omega
  obtain ⟨m1, g1, g2, g3⟩ := C240_reduce1_partial v hn m X hX
  obtain ⟨m', k1, k2⟩ := after_core v r (v.slice1 0) h0 h1 hr ha
    (fun i hi k hk => ⟨i, hi, 0, hn', k, hk, slice1_cell v i 0 k⟩) m m1 R _ hR (fun i hi k hk => by rw [slice1_cell]; exact g2 i hi k hk) g3
  exact ⟨m', by rw [RV3.reduce1Into, g1, Res.ok_bind, k1], k2⟩

/-- `reduce2_destructively_into(r)`.  Missing: as for `reduce2_destructively`. -/
theorem C240_reduce2Into_partial [AddCommMonoid α] (v : RV3) (hv : v.isRegular = true) (hn : 2 ≤ v.n2 ∨ v.n2 = 1 ∧ v.n0 * v.n1 ≠ 1)
    (r : RV2) (h0 : r.n0 = v.n0)
    (h1 : r.n1 = v.n1) (hr : r.Inj) (ha : v.Apart2 r) (m : Buf α) (X : Nat → Nat → Nat → α) (R : Nat → Nat → α) (hX : v.Has m X)
    (hR : r.Has m R) : ∃ m', v.reduce2Into r m = .ok m' ∧
      r.Has m' (fun i j => R i j + ((List.range v.n2).map fun k => X i j k).sum) ∧
      ∀ c, ¬ v.Mem c → (∀ i, i < r.n0 → ∀ j, j < r.n1 → c ≠ r.cell i j) → m' c = m c := by
  obtain ⟨m1, g1, g2, g3⟩ := C240_reduce2_partial v hv hn m X hX
  obtain ⟨m', k1, k2⟩ := after_core v r (v.slice2 0) h0 h1 hr ha
    (fun i hi j hj => ⟨i, hi, j, hj, 0, by omega, slice2_cell v i j 0⟩) m m1 R _ hR (fun i hi j hj => by rw [slice2_cell]; exact g2 i hi j hj) g3
  exact ⟨m', by rw [RV3.reduce2Into, g1, Res.ok_bind, k1], k2⟩

/-- A single slice is doubled, for every contents. -/
theorem C240_single_doubled_fails [AddCommMonoid α] (v : RV3) (hv : v.isRegular = true) (hn : v.n0 = 1) (m : Buf α) (X : Nat → Nat → Nat → α)
    (hX : v.Has m X) : ∃ m', v.reduce0 m = .ok m' ∧
      ∀ j, j < v.n1 → ∀ k, k < v.n2 → m' (v.cell 0 j k) = some (X 0 j k + X 0 j k) := by
  obtain ⟨m', h1, h2⟩ := C140_one_row_doubled v.flat12 (flat12_regular hv) hn m _ (flat12_has hv hX)
  refine ⟨m', by rw [RV3.reduce0, fuse12_eq hv, Res.ok_bind, h1], ?_⟩
  intro j hj k hk
  have := h2 _ (RV2.flat_lt hj hk)
  rw [flat12_cell hv] at this
  rw [this, RV2.flat_div hk, RV2.flat_mod hk]

/-- Views that are not regular are refused along the first and the last axis. -/
theorem C240_irregular_fails [Zero α] [Add α] (v : RV3) (hv : v.isRegular = false) (r : RV2) (m : Buf α) :
    v.reduce0 m = .throw ∧ v.reduce2 m = .throw ∧ v.reduce0Into r m = .throw ∧ v.reduce2Into r m = .throw := by
  simp [RV3.reduce0Into, RV3.reduce2Into, RV3.reduce0, RV3.reduce2, RV3.fuse12, RV3.fuse01, hv]

example : ∃ m', (RV3.mk 0 3 1 2 2 2 1).reduce0 (Buf.ofList [1, 2, 3, 4, 5, 6]) = .ok m' ∧ m' 0 = some (9 : Int) ∧ m' 1 = some 12 :=
  ⟨_, rfl, rfl, rfl⟩

example : ∃ m', (RV3.mk 0 1 2 3 6 3 1).reduce2Into ⟨6, 1, 2, 2, 1⟩ (Buf.ofList [1, 2, 3, 4, 5, 6, 100, 200]) = .ok m' ∧ m' 6 = some (106 : Int) ∧
    m' 7 = some 215 := ⟨_, rfl, rfl, rfl⟩

example : ∃ m', (RV3.mk 0 1 2 2 4 1 2).reduce1 (Buf.ofList [1, 2, 3, 4]) = .ok m' ∧ m' 0 = some (3 : Int) ∧ m' 2 = some 7 :=
  ⟨_, rfl, rfl, rfl⟩

/-! ### C241 broadcasts -/

/-- `broadcast0(x)`: every slice becomes `x`.  Missing: views that are not regular, sources whose rows do not lie close, no slices. -/
theorem C241_broadcast0_partial (v : RV3) (x : RV2) (h0 : x.n0 = v.n1) (h1 : x.n1 = v.n2) (hv : v.isRegular = true)
    (hs : x.s0 = x.n1 * x.s1) (hn : 1 ≤ v.n0) (hx : v.Apart2 x) (m : Buf α) (R : Nat → Nat → Nat → α) (X : Nat → Nat → α) (hR : v.Has m R)
    (hX : x.Has m X) : ∃ m', v.broadcast0 x m = .ok m' ∧ v.Becomes m m' fun _ j k => X j k := by
  have hc : ∀ l, x.fuse01.cell l = x.cell (l / x.n1) (l % x.n1) := by
    intro l
    have := (C139_fuse_partial x hs (l / x.n1) (l % x.n1)).2
    rwa [Nat.mul_comm, Nat.div_add_mod] at this
  obtain ⟨m', g1, g2, g3⟩ := C141_broadcast0_partial v.flat12 x.fuse01 (by show x.n0 * x.n1 = _; rw [h0, h1]; rfl) (Or.inl hn)
    (RV2.reg_inj (flat12_regular hv))
    (by
      intro i hi l hl l' hl' e
      rw [← Nat.div_add_mod l v.n2, flat12_cell hv, hc] at e
      exact hx i hi _ (RV2.div_lt_of_flat hl) _ (RV2.mod_lt_of_flat hl) _ (RV2.div_lt_of_flat hl') _ (RV2.mod_lt_of_flat hl') e)
    m _ (fun l => X (l / x.n1) (l % x.n1)) (flat12_has hv hR)
    (fun l hl => by rw [hc]; exact hX _ (RV2.div_lt_of_flat hl) _ (RV2.mod_lt_of_flat hl))
  refine ⟨m', ?_, ?_, fun c hc => g3 c (flat12_mem hv hc)⟩
  · unfold RV3.broadcast0
    simp only [h0, h1, decide_true, Res.assrt_true, Res.ok_bind, fuse12_eq hv]
    exact g1
  · intro i hi j hj k hk
    have := g2 i hi _ (RV2.flat_lt hj hk)
    rw [flat12_cell hv] at this
    rw [this, h1]
    dsimp only
    rw [RV2.flat_div hk, RV2.flat_mod hk]

/-- `broadcast1(x)`: row `j` of every slice `i` becomes row `i` of `x`.  Missing: slices without rows, which are nevertheless written to. -/
theorem C241_broadcast1_partial (v : RV3) (x : RV2) (h0 : x.n0 = v.n0) (h1 : x.n1 = v.n2) (hi : v.Inj) (hn : 1 ≤ v.n1) (hx : v.Apart2 x)
    (m : Buf α) (R : Nat → Nat → Nat → α) (X : Nat → Nat → α) (hR : v.Has m R)
    (hX : x.Has m X) : ∃ m', v.broadcast1 x m = .ok m' ∧ v.Becomes m m' fun i _ k => X i k := by
  have hxc : ∀ i k, (x.slice0 i).cell k = x.cell i k := fun i k => (C138_slices x i k).1
  obtain ⟨m', g1, g2, g3⟩ := loop_regions v.n0 (fun i m => (v.slice0 i).broadcast0 (x.slice0 i) m)
    (fun i c => ∃ j, j < v.n1 ∧ ∃ k, k < v.n2 ∧ c = v.cell i j k)
    (fun i m => ∀ j, j < v.n1 → ∀ k, k < v.n2 → m (v.cell i j k) = some (X i k)) m
    (by
      rintro i hi1 i' hi' hne c ⟨j, hj, k, hk, rfl⟩ ⟨j', hj', k', hk', e⟩
      exact hne (hi i hi1 j hj k hk i' hi' j' hj' k' hk' e).1)
    (fun i _ m m' h hp j hj k hk => by rw [h _ ⟨j, hj, k, hk, rfl⟩, hp j hj k hk])
    (by
      intro i hi1 m1 hm1
      obtain ⟨m', k1, k2, k3⟩ := C141_broadcast0_partial (v.slice0 i) (x.slice0 i) h1 (Or.inl hn)
        (fun j hj k hk j' hj' k' hk' e => by
          rw [slice0_cell, slice0_cell] at e
          exact (hi i hi1 j hj k hk i hi1 j' hj' k' hk' e).2)
        (fun j hj k hk l hl => by rw [slice0_cell, hxc]; exact hx i hi1 j hj k hk i (h0 ▸ hi1) l hl) m1 (R i) (X i)
        (fun j hj k hk => by
          rw [slice0_cell, hm1 _ fun i' hi' hne => by
            rintro ⟨j', hj', k', hk', e⟩
            exact hne (hi i hi1 j hj k hk i' hi' j' hj' k' hk' e).1.symm]
          exact hR i hi1 j hj k hk)
        (fun k hk => by
          rw [hxc, hm1 _ fun i' hi' hne => by
            rintro ⟨j', hj', k', hk', e⟩
            exact hx i' hi' j' hj' k' hk' i (h0 ▸ hi1) k hk e.symm]
          exact hX i (h0 ▸ hi1) k hk)
      refine ⟨m', k1, fun j hj k hk => ?_, fun c hc => k3 c fun j hj k hk e => hc ⟨j, hj, k, hk, by rw [e, slice0_cell]⟩⟩
      have := k2 j hj k hk
      rwa [slice0_cell] at this)
  refine ⟨m', ?_, fun i hi j hj k hk => g2 i hi j hj k hk, fun c hc => g3 c fun i hi => ?_⟩
  · unfold RV3.broadcast1
    simp only [h0, h1, decide_true, Res.assrt_true, Res.ok_bind]
    exact g1
  · rintro ⟨j, hj, k, hk, e⟩
    exact hc ⟨i, hi, j, hj, k, hk, e⟩

/-- `broadcast2(x)`: every entry of row `(i,j)` becomes `x(i,j)`.  Missing: views that are not regular, sources whose rows do not lie close. -/
theorem C241_broadcast2_partial (v : RV3) (x : RV2) (h0 : x.n0 = v.n0) (h1 : x.n1 = v.n1) (hv : v.isRegular = true)
    (hs : x.s0 = x.n1 * x.s1) (hx : v.Apart2 x) (m : Buf α) (R : Nat → Nat → Nat → α) (X : Nat → Nat → α) (hR : v.Has m R)
    (hX : x.Has m X) : ∃ m', v.broadcast2 x m = .ok m' ∧ v.Becomes m m' fun i j _ => X i j := by
  have hc : ∀ l, x.fuse01.cell l = x.cell (l / x.n1) (l % x.n1) := by
    intro l
    have := (C139_fuse_partial x hs (l / x.n1) (l % x.n1)).2
    rwa [Nat.mul_comm, Nat.div_add_mod] at this
  obtain ⟨m', g1, g2, g3⟩ := C141_broadcast1 v.flat01 x.fuse01 (by show x.n0 * x.n1 = _; rw [h0, h1]; rfl)
    (RV2.reg_inj (flat01_regular hv))
    (by
      intro l hl k hk l' hl' e
      rw [← Nat.div_add_mod l v.n1, flat01_cell hv, hc] at e
      exact hx _ (RV2.div_lt_of_flat hl) _ (RV2.mod_lt_of_flat hl) k hk _ (RV2.div_lt_of_flat hl') _ (RV2.mod_lt_of_flat hl') e)
    m _ (fun l => X (l / x.n1) (l % x.n1)) (flat01_has hv hR)
    (fun l hl => by rw [hc]; exact hX _ (RV2.div_lt_of_flat hl) _ (RV2.mod_lt_of_flat hl))
  refine ⟨m', ?_, ?_, fun c hc => g3 c (flat01_mem hv hc)⟩
  · unfold RV3.broadcast2
    simp only [h0, h1, decide_true, Res.assrt_true, Res.ok_bind, fuse01_eq hv]
    exact g1
  · intro i hi j hj k hk
    have := g2 _ (RV2.flat_lt hi hj) k hk
    rw [flat01_cell hv] at this
    rw [this, h1]
    dsimp only
    rw [RV2.flat_div hj, RV2.flat_mod hj]

/-- A transposed source is read in the wrong order. -/
theorem C241_transposed_fails : ∃ (v : RV3) (x : RV2) (m m' : Buf Int), x.n0 = v.n1 ∧ x.n1 = v.n2 ∧ v.isRegular = true ∧ x.Inj ∧ v.Apart2 x ∧
    m (x.cell 1 0) = some 6 ∧ v.broadcast0 x m = .ok m' ∧ m' (v.cell 0 1 0) ≠ some 6 := by
  refine ⟨⟨0, 1, 2, 2, 4, 2, 1⟩, ⟨4, 2, 2, 1, 2⟩, Buf.ofList [0, 0, 0, 0, 5, 6, 7, 8, 9, 10, 11], _, rfl, rfl, rfl, ?_, ?_, rfl, rfl, by decide⟩
  · intro i hi j hj k hk l hl; simp [RV2.cell] at *; omega
  · intro i hi j hj k hk i' hi' j' hj'; simp [RV3.cell, RV2.cell] at *; omega

theorem C241_transposed2_fails : ∃ (v : RV3) (x : RV2) (m : Buf Int), x.n0 = v.n0 ∧ x.n1 = v.n1 ∧ v.isRegular = true ∧ x.Inj ∧ v.Apart2 x ∧
    (∀ i, i < x.n0 → ∀ j, j < x.n1 → (m (x.cell i j)).isSome) ∧ (∀ c, v.Mem c → (m c).isSome) ∧ v.broadcast2 x m = .ub := by
  refine ⟨⟨0, 2, 2, 1, 2, 1, 1⟩, ⟨4, 2, 2, 1, 2⟩, Buf.ofList [0, 0, 0, 0, 5, 6, 7, 8], rfl, rfl, rfl, ?_, ?_, ?_, ?_, rfl⟩
  · intro i hi j hj k hk l hl; simp [RV2.cell] at *; omega
  · intro i hi j hj k hk i' hi' j' hj'; simp [RV3.cell, RV2.cell] at *; omega
  · intro i hi j hj; have : i < 2 := hi; have : j < 2 := hj; interval_cases i <;> interval_cases j <;> rfl
  · rintro c ⟨i, hi, j, hj, k, hk, rfl⟩
    have : i < 2 := hi; have : j < 2 := hj; have : k < 1 := hk
    interval_cases i <;> interval_cases j <;> interval_cases k <;> rfl

/-- Slices without rows: cells that are not in the view are overwritten. -/
theorem C241_no_rows_fails : ∃ (v : RV3) (x : RV2) (m m' : Buf Int), v.n1 = 0 ∧ x.n0 = v.n0 ∧ x.n1 = v.n2 ∧ v.isRegular = true ∧
    v.broadcast1 x m = .ok m' ∧ m' 0 ≠ m 0 := by
  exact ⟨⟨0, 1, 0, 2, 0, 2, 1⟩, ⟨2, 1, 2, 2, 1⟩, Buf.ofList [0, 0, 5, 6], _, rfl, rfl, rfl, rfl, rfl, by decide⟩

/-- Sources of other sizes are refused. -/
theorem C241_refuses (v : RV3) (x : RV2) (m : Buf α) : (¬ (x.n0 = v.n1 ∧ x.n1 = v.n2) → v.broadcast0 x m = .throw) ∧
    (¬ (x.n0 = v.n0 ∧ x.n1 = v.n2) → v.broadcast1 x m = .throw) ∧ (¬ (x.n0 = v.n0 ∧ x.n1 = v.n1) → v.broadcast2 x m = .throw) := by
  have key : ∀ (p q : Prop) [Decidable p] [Decidable q] (k : Res (Buf α)), ¬ (p ∧ q) →
      (do Res.assrt (decide p); Res.assrt (decide q); k) = .throw := by
    intro p q _ _ k h
    by_cases hp : p
    · have hq : ¬ q := fun hq => h ⟨hp, hq⟩
      simp [hp, hq]
    · simp [hp]
  exact ⟨key _ _ _, key _ _ _, key _ _ _⟩

example : ∃ m', (RV3.mk 0 2 1 2 2 2 1).broadcast0 ⟨4, 1, 2, 2, 1⟩ (Buf.ofList [0, 0, 0, 0, 7, 8]) = .ok m' ∧
    (List.range 4).map m' = [some (7 : Int), some 8, some 7, some 8] := ⟨_, rfl, rfl⟩

example : ∃ m', (RV3.mk 0 2 1 2 2 2 1).broadcast2 ⟨4, 2, 1, 1, 1⟩ (Buf.ofList [0, 0, 0, 0, 7, 8]) = .ok m' ∧
    (List.range 4).map m' = [some (7 : Int), some 7, some 8, some 8] := ⟨_, rfl, rfl⟩

example : ∃ m', (RV3.mk 0 2 2 1 2 1 1).broadcast1 ⟨4, 2, 1, 1, 1⟩ (Buf.ofList [0, 0, 0, 0, 7, 8]) = .ok m' ∧
    (List.range 4).map m' = [some (7 : Int), some 7, some 8, some 8] := ⟨_, rfl, rfl⟩

/-! ### C242 views of views -/

theorem C242_slices (v : RV3) (i j k : Nat) :
    ((v.slice0 i).cell j k = v.cell i j k ∧ (v.slice0 i).n0 = v.n1 ∧ (v.slice0 i).n1 = v.n2) ∧
    ((v.slice1 j).cell i k = v.cell i j k ∧ (v.slice1 j).n0 = v.n0 ∧ (v.slice1 j).n1 = v.n2) ∧
    ((v.slice2 k).cell i j = v.cell i j k ∧ (v.slice2 k).n0 = v.n0 ∧ (v.slice2 k).n1 = v.n1) :=
  ⟨⟨slice0_cell v i j k, rfl, rfl⟩, ⟨slice1_cell v i j k, rfl, rfl⟩, ⟨slice2_cell v i j k, rfl, rfl⟩⟩

theorem C242_transp (v : RV3) (i j k : Nat) : v.transp01.cell i j k = v.cell j i k ∧ v.transp01.n0 = v.n1 ∧ v.transp01.n1 = v.n0 ∧
    v.transp01.n2 = v.n2 := ⟨by simp only [RV3.transp01, RV3.cell]; ring, rfl, rfl, rfl⟩

/-- The diagonals exist exactly for equal sizes. -/
theorem C242_diags (v : RV3) :
    (∀ w, v.diag01 = .ok w ↔ v.n0 = v.n1 ∧ w = ⟨v.arr, v.n0, v.n2, v.s0 + v.s1, v.s2⟩) ∧
    (∀ w, v.diag01 = .ok w → ∀ i k, w.cell i k = v.cell i i k ∧ w.n0 = v.n0 ∧ w.n0 = v.n1 ∧ w.n1 = v.n2) ∧
    (∀ w, v.diag02 = .ok w → ∀ i j, w.cell i j = v.cell i j i ∧ w.n0 = v.n0 ∧ w.n0 = v.n2 ∧ w.n1 = v.n1) ∧
    (∀ w, v.diag12 = .ok w → ∀ i j, w.cell i j = v.cell i j j ∧ w.n0 = v.n0 ∧ w.n1 = v.n1 ∧ w.n1 = v.n2) ∧
    (v.diag01 = .throw ↔ v.n0 ≠ v.n1) ∧ (v.diag02 = .throw ↔ v.n0 ≠ v.n2) ∧ (v.diag12 = .throw ↔ v.n1 ≠ v.n2) := by
  have key : ∀ (p : Prop) [Decidable p] (u w : RV2), ((do Res.assrt (decide p); Res.ok u) = Res.ok w ↔ p ∧ w = u) ∧
      ((do Res.assrt (decide p); Res.ok u) = Res.throw ↔ ¬ p) := by
    intro p _ u w
    by_cases h : p
    · simp [h, eq_comm]
    · simp [h]
  refine ⟨fun w => (key _ _ w).1, ?_, ?_, ?_, (key _ _ ⟨0, 0, 0, 0, 0⟩).2, (key _ _ ⟨0, 0, 0, 0, 0⟩).2, (key _ _ ⟨0, 0, 0, 0, 0⟩).2⟩
  all_goals
    intro w h i j
    obtain ⟨e, rfl⟩ := (key _ _ w).1.1 h
    refine ⟨?_, ?_, ?_, ?_⟩
    · simp only [RV2.cell, RV3.cell]; ring
    all_goals first | rfl | exact e

/-- Fusing two axes is possible exactly for regular views, and keeps every cell. -/
theorem C242_fuse (v : RV3) :
    (v.isRegular = false → v.fuse01 = .throw ∧ v.fuse12 = .throw) ∧
    (v.isRegular = true → ∃ w u, v.fuse01 = .ok w ∧ v.fuse12 = .ok u ∧ w.n0 = v.n0 * v.n1 ∧ w.n1 = v.n2 ∧ u.n0 = v.n0 ∧ u.n1 = v.n1 * v.n2 ∧
      ∀ i j k, w.cell (v.n1 * i + j) k = v.cell i j k ∧ u.cell i (v.n2 * j + k) = v.cell i j k) :=
  ⟨fun h => by simp [RV3.fuse01, RV3.fuse12, h], fun h => ⟨_, _, fuse01_eq h, fuse12_eq h, rfl, rfl, rfl, rfl,
    fun i j k => ⟨flat01_cell h i j k, flat12_cell h i j k⟩⟩⟩

theorem C242_block (v : RV3) (i0 i1 i2 m0 m1 m2 i j k : Nat) :
    (v.block i0 i1 i2 m0 m1 m2).cell i j k = v.cell (i0 + i) (i1 + j) (i2 + k) ∧ (v.block i0 i1 i2 m0 m1 m2).n0 = m0 ∧
    (v.block i0 i1 i2 m0 m1 m2).n1 = m1 ∧ (v.block i0 i1 i2 m0 m1 m2).n2 = m2 :=
  ⟨by simp only [RV3.block, RV3.cell]; ring, rfl, rfl, rfl⟩

theorem C242_split (x : RV2) (a b : Nat) :
    (a * b = x.n0 → ∃ w, RV3.split0 x a b = .ok w ∧ w.n0 = a ∧ w.n1 = b ∧ w.n2 = x.n1 ∧ ∀ i j k, w.cell i j k = x.cell (b * i + j) k) ∧
    (a * b = x.n1 → ∃ w, RV3.split1 x a b = .ok w ∧ w.n0 = x.n0 ∧ w.n1 = a ∧ w.n2 = b ∧ ∀ i j k, w.cell i j k = x.cell i (b * j + k)) ∧
    (a * b ≠ x.n0 → RV3.split0 x a b = .throw) ∧ (a * b ≠ x.n1 → RV3.split1 x a b = .throw) := by
  refine ⟨fun h => ⟨⟨x.arr, a, b, x.n1, x.s0 * b, x.s0, x.s1⟩, by simp [RV3.split0, h], rfl, rfl, rfl, fun i j k => ?_⟩, fun h => ⟨⟨x.arr, x.n0, a, b, x.s0, x.s1 * b, x.s1⟩, by simp [RV3.split1, h], rfl, rfl, rfl, fun i j k => ?_⟩,
    fun h => by simp [RV3.split0, h], fun h => by simp [RV3.split1, h]⟩
  · simp only [RV2.cell, RV3.cell]; ring
  · simp only [RV2.cell, RV3.cell]; ring

theorem C242_repeat (x : RV2) (n i j k : Nat) :
    ((RV3.repeat0 x n).cell i j k = x.cell j k ∧ (RV3.repeat0 x n).n0 = n ∧ (RV3.repeat0 x n).n1 = x.n0 ∧ (RV3.repeat0 x n).n2 = x.n1) ∧
    ((RV3.repeat1 x n).cell i j k = x.cell i k ∧ (RV3.repeat1 x n).n0 = x.n0 ∧ (RV3.repeat1 x n).n1 = n ∧ (RV3.repeat1 x n).n2 = x.n1) ∧
    ((RV3.repeat2 x n).cell i j k = x.cell i j ∧ (RV3.repeat2 x n).n0 = x.n0 ∧ (RV3.repeat2 x n).n1 = x.n1 ∧ (RV3.repeat2 x n).n2 = n) := by
  simp [RV3.repeat0, RV3.repeat1, RV3.repeat2, RV2.cell, RV3.cell]

example : (RV3.mk 10 2 2 3 6 3 1).diag01 = .ok ⟨10, 2, 3, 9, 1⟩ ∧ (RV3.mk 10 2 2 3 6 3 1).diag12 = .throw ∧
    (RV3.mk 10 2 2 3 6 3 1).fuse12 = .ok ⟨10, 2, 6, 6, 1⟩ ∧ (RV3.mk 10 2 2 3 6 1 2).fuse12 = .throw ∧
    RV3.split1 ⟨10, 2, 6, 6, 1⟩ 2 3 = .ok ⟨10, 2, 2, 3, 6, 3, 1⟩ := ⟨rfl, rfl, rfl, rfl, rfl⟩

end Cnine
