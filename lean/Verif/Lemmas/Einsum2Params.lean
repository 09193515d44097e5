import Verif.Lemmas.Einsum2Run
import Verif.Props.EinsumForm2

namespace Cnine
namespace Einsum

variable {α : Type}

theorem mem_convs {xs ys rs : List Char} {c : Char} :
    c ∈ convs xs ys rs ↔ (c ∈ rs ∧ c ∈ xs ∧ c ∈ ys) ∧ c ∈ ['U', 'V', 'W'] := by
  simp only [convs, List.mem_filter, mem_inAll, decide_eq_true_eq]

theorem mem_plain3 {xs ys rs : List Char} {c : Char} :
    c ∈ plain3 xs ys rs ↔ (c ∈ rs ∧ c ∈ xs ∧ c ∈ ys) ∧ c ∉ ['U', 'V', 'W', '*'] := by
  simp only [plain3, List.mem_filter, mem_inAll, decide_eq_true_eq]

theorem plain3_not_conv {xs ys rs : List Char} {c : Char} (hc : c ∈ plain3 xs ys rs) : c ∉ convs xs ys rs := by
  intro hcv
  have h := (mem_plain3.1 hc).2
  have := (mem_convs.1 hcv).2
  simp only [List.mem_cons, List.not_mem_nil, or_false] at this h
  tauto

theorem NoSpecial.mem_all {xs ys rs : List Char} (h : NoSpecial xs ys rs) {c : Char} (hr : c ∈ rs) (hx : c ∈ xs)
    (hy : c ∈ ys) : c ∈ convs xs ys rs ∨ c ∈ plain3 xs ys rs := by
  rw [mem_convs, mem_plain3]
  by_cases hc : c ∈ ['U', 'V', 'W']
  · exact Or.inl ⟨⟨hr, hx, hy⟩, hc⟩
  · refine Or.inr ⟨⟨hr, hx, hy⟩, ?_⟩
    have : c ≠ '*' := by rintro rfl; exact h.triple ⟨hr, hx, hy⟩
    simp only [List.mem_cons, List.not_mem_nil, or_false, not_or] at hc ⊢
    exact ⟨hc.1, hc.2.1, hc.2.2, this⟩

theorem filter_all {l : List Char} {p : Char → Bool} (h : ∀ c ∈ l, p c = true) : l.filter p = l :=
  List.filter_eq_self.2 h

theorem form2_groups {xs ys rs : List Char} (hx : '_' ∉ xs) (hy : '_' ∉ ys) (hr : '_' ∉ rs) (hs : NoSpecial xs ys rs) :
    (form2 xs ys rs).xsums = (inNone xs rs ys).map (positions · xs) ∧
    (form2 xs ys rs).ysums = (inNone ys rs xs).map (positions · ys) ∧
    (form2 xs ys rs).bcasts = (inNone rs xs ys).map (positions · rs) ∧
    (form2 xs ys rs).xr = (inFirst rs xs ys).map (fun c => (positions c xs, positions c rs)) ∧
    (form2 xs ys rs).yr = (inFirst rs ys xs).map (fun c => (positions c ys, positions c rs)) ∧
    (form2 xs ys rs).xy = (inFirst xs ys rs).map (fun c => (positions c xs, positions c ys)) ∧
    (form2 xs ys rs).conv = (convs xs ys rs).map (fun c => (positions c xs, positions c ys, positions c rs)) ∧
    (form2 xs ys rs).triple = [] ∧
    (form2 xs ys rs).transfers = (plain3 xs ys rs).map (fun c => (positions c xs, positions c ys, positions c rs)) := by
  obtain ⟨a1, a2, a3, a4, -, a6, -, a8, a9, a10, a11⟩ := C26_groups xs ys rs hx hy hr
  dsimp only at *
  refine ⟨a1, a2, a3, ?_, ?_, a8, a9, ?_, a11⟩
  · rw [a4, filter_all]
    intro c hc
    rw [mem_inFirst] at hc
    have : c ≠ 'S' := by rintro rfl; exact hc.2.2 ((hs.gather hc.1).1 hc.2.1)
    simpa using this
  · rw [a6, filter_all]
    intro c hc
    rw [mem_inFirst] at hc
    have : c ≠ 'S' := by rintro rfl; exact hc.2.2 ((hs.gather hc.1).2 hc.2.1)
    simpa using this
  · rw [a10, List.filter_eq_nil_iff.2, List.map_nil]
    intro c hc
    rw [mem_inAll] at hc
    have : c ≠ '*' := by rintro rfl; exact hs.triple hc
    simpa using this

theorem mem_transferLetters {xs ys rs : List Char} (hs : NoSpecial xs ys rs) {c : Char} :
    c ∈ transferLetters xs ys rs ↔ c ∈ rs ∧ (c ∈ xs ∨ c ∈ ys) := by
  simp only [transferLetters, List.mem_append, mem_inFirst]
  constructor
  · rintro (((h | h) | h) | h)
    · tauto
    · exact ⟨(mem_convs.1 h).1.1, Or.inl (mem_convs.1 h).1.2.1⟩
    · tauto
    · exact ⟨(mem_plain3.1 h).1.1, Or.inl (mem_plain3.1 h).1.2.1⟩
  · rintro ⟨h1, h2⟩
    by_cases hx : c ∈ xs
    · by_cases hy : c ∈ ys
      · have := hs.mem_all h1 hx hy
        tauto
      · tauto
    · tauto

theorem mem_contractLetters {xs ys rs : List Char} {c : Char} :
    c ∈ contractLetters xs ys rs ↔ (c ∈ xs ∧ c ∈ ys ∧ c ∉ rs) ∨ c ∈ convs xs ys rs := by
  simp only [contractLetters, List.mem_append, mem_inFirst]

theorem nodup_app {A B : List Char} (h1 : A.Nodup) (h2 : B.Nodup) (h3 : ∀ a ∈ A, a ∉ B) : (A ++ B).Nodup :=
  List.nodup_append.2 ⟨h1, h2, fun a ha b hb e => h3 a ha (e ▸ hb)⟩

theorem transferLetters_nodup (xs ys rs : List Char) : (transferLetters xs ys rs).Nodup := by
  unfold transferLetters
  refine nodup_app (nodup_app (nodup_app (inFirst_nodup _ _ _) ((inAll_nodup _ _ _).filter _) ?_) (inFirst_nodup _ _ _) ?_)
    ((inAll_nodup _ _ _).filter _) ?_
  · intro a h1 h2
    rw [mem_inFirst] at h1
    exact h1.2.2 (mem_convs.1 h2).1.2.2
  · intro a h1 h2
    rw [List.mem_append, mem_inFirst, mem_convs] at h1
    rw [mem_inFirst] at h2
    tauto
  · intro a h1 h2
    simp only [List.mem_append, mem_inFirst, mem_convs] at h1
    have h2 := mem_plain3.1 h2
    simp only [List.mem_cons, List.not_mem_nil, or_false] at h1 h2
    tauto

theorem contractLetters_nodup (xs ys rs : List Char) : (contractLetters xs ys rs).Nodup := by
  refine nodup_app (inFirst_nodup _ _ _) ((inAll_nodup _ _ _).filter _) ?_
  intro a h1 h2
  rw [mem_inFirst] at h1
  exact h1.2.2 (mem_convs.1 h2).1.1

theorem transferLetters_length {xs ys rs : List Char} (hs : NoSpecial xs ys rs) :
    (transferLetters xs ys rs).length = (common rs (xs ++ ys)).length := by
  apply List.Perm.length_eq
  rw [List.perm_ext_iff_of_nodup (transferLetters_nodup _ _ _) (common_nodup _ _)]
  intro c
  rw [mem_transferLetters hs, mem_common, List.mem_append]

theorem Few.transfer' {xs ys rs : List Char} (hf : Few xs ys rs) (hs : NoSpecial xs ys rs) :
    (plain3 xs ys rs).length + (inFirst rs xs ys).length + (inFirst rs ys xs).length + (convs xs ys rs).length ≤ 4 := by
  have := hf.transfer
  rw [← transferLetters_length hs] at this
  simp only [transferLetters, List.length_append] at this
  omega

theorem check_ok {xs ys rs : List Char} (hx : '_' ∉ xs) (hy : '_' ∉ ys) (hr : '_' ∉ rs) (hs : NoSpecial xs ys rs)
    (hf : Few xs ys rs) : (form2 xs ys rs).check = .ok () := by
  obtain ⟨a1, a2, a3, a4, a5, a6, a7, a8, a9⟩ := form2_groups hx hy hr hs
  unfold Form2.check
  rw [a1, a2, a3, a4, a5, a6, a7, a8, a9]
  simp only [List.length_map, List.length_nil, hf.xsum, hf.ysum, hf.bcast, hf.transfer' hs, hf.contract, Nat.zero_le,
    decide_true, Res.assrt, if_true, Res.ok_bind]

/-- Extents of the letters: equal in all strings, except for the convolution letters. -/
structure Sizes (xs ys rs : List Char) (lx ly lr : Char → Nat) : Prop where
  xr : ∀ c ∈ xs, c ∈ rs → c ∉ convs xs ys rs → lx c = lr c
  yr : ∀ c ∈ ys, c ∈ rs → c ∉ convs xs ys rs → ly c = lr c
  xy : ∀ c ∈ xs, c ∈ ys → c ∉ rs → lx c = ly c
  conv : ∀ c ∈ convs xs ys rs, ly c ≤ lx c ∧ lr c + ly c ≤ lx c + 1

/-- The three parameter builders without their assertions: `a1 a2` are copied from the first operand, `d1 d2` from
the second, `e` from both, `g1 g2` are contracted. -/
def gparams (sx sy b : List (List Nat)) (a1 a2 d1 d2 : List (List Nat × List Nat))
    (e : List (List Nat × List Nat × List Nat)) (g1 g2 : List (List Nat × List Nat)) (r x y : View) : Res P2 := do
  let a ← fillAxes 0 sx x (fun _ => 1) (fun _ => 0)
  let b' ← fillAxes 0 sy y (fun _ => 1) (fun _ => 0)
  let c ← fillAxes 0 b r (fun _ => 1) (fun _ => 0)
  let p : P2 := { xsd := a.1, xss := a.2, ysd := b'.1, yss := b'.2, bd := c.1, bs := c.2 }
  let q ← P2.transfer1 0 a1 x r p
  let q ← P2.transfer1 q.1 a2 x r q.2
  let q ← P2.transfer2 q.1 d1 y r q.2
  let q ← P2.transfer2 q.1 d2 y r q.2
  let q ← P2.transfer12 q.1 e x y r q.2
  let q ← P2.contract 0 g1 x y q.2
  let q ← P2.contract q.1 g2 x y q.2
  .ok q.2

/-- The parameters of the loops for given groups of letters. -/
def lparams (r x y : View) (rs xs ys T C SX SY B NX NY : List Char) (lr lx ly lc : Char → Nat) : P2 :=
  { td := ext (T.map lr), tsx := str (T.map (tstr NX xs x.strides)), tsy := str (T.map (tstr NY ys y.strides)),
    tsr := str (T.map (comb · rs r.strides)),
    xsd := ext (SX.map lx), xss := str (SX.map (comb · xs x.strides)),
    ysd := ext (SY.map ly), yss := str (SY.map (comb · ys y.strides)),
    cd := ext (C.map lc), csx := str (C.map (comb · xs x.strides)), csy := str (C.map (comb · ys y.strides)),
    bd := ext (B.map lr), bs := str (B.map (comb · rs r.strides)) }

theorem gparams_eq (rs xs ys SX SY B A1 A2 D1 D2 E G1 G2 NX NY : List Char) (lr lx ly lc : Char → Nat) (r x y : View)
    (hrd : r.dims = rs.map lr) (hxd : x.dims = xs.map lx) (hyd : y.dims = ys.map ly) (hrw : r.WF) (hxw : x.WF) (hyw : y.WF)
    (hSX : ∀ c ∈ SX, c ∈ xs) (hSY : ∀ c ∈ SY, c ∈ ys) (hB : ∀ c ∈ B, c ∈ rs)
    (hSX3 : SX.length ≤ 3) (hSY3 : SY.length ≤ 3) (hB3 : B.length ≤ 3)
    (hA : ∀ c ∈ A1 ++ A2, c ∈ rs ∧ c ∈ xs ∧ (c ∈ ys → c ∈ NY) ∧ c ∉ NX)
    (hD : ∀ c ∈ D1 ++ D2, c ∈ rs ∧ c ∈ ys ∧ (c ∈ xs → c ∈ NX) ∧ c ∉ NY)
    (hE : ∀ c ∈ E, c ∈ rs ∧ c ∈ xs ∧ c ∈ ys ∧ c ∉ NX ∧ c ∉ NY ∧ lx c = lr c)
    (hG : ∀ c ∈ G1 ++ G2, c ∈ xs ∧ c ∈ ys ∧ min (lx c) (ly c) = lc c)
    (hT4 : (A1 ++ A2 ++ D1 ++ D2 ++ E).length ≤ 4) (hC3 : (G1 ++ G2).length ≤ 4) :
    gparams (SX.map (positions · xs)) (SY.map (positions · ys)) (B.map (positions · rs))
      (A1.map fun c => (positions c xs, positions c rs)) (A2.map fun c => (positions c xs, positions c rs))
      (D1.map fun c => (positions c ys, positions c rs)) (D2.map fun c => (positions c ys, positions c rs))
      (E.map fun c => (positions c xs, positions c ys, positions c rs))
      (G1.map fun c => (positions c xs, positions c ys)) (G2.map fun c => (positions c xs, positions c ys)) r x y =
    .ok (lparams r x y rs xs ys (A1 ++ A2 ++ D1 ++ D2 ++ E) (G1 ++ G2) SX SY B NX NY lr lx ly lc) := by
  have hrl : rs.length = r.strides.length := by rw [hrw, hrd, List.length_map]
  have hxl : xs.length = x.strides.length := by rw [hxw, hxd, List.length_map]
  have hyl : ys.length = y.strides.length := by rw [hyw, hyd, List.length_map]
  have e1 := fillAxes_eq SX xs lx x hxd hxl hSX 0 (by omega) (fun _ => 1) (fun _ => 0)
  have e2 := fillAxes_eq SY ys ly y hyd hyl hSY 0 (by omega) (fun _ => 1) (fun _ => 0)
  have e3 := fillAxes_eq B rs lr r hrd hrl hB 0 (by omega) (fun _ => 1) (fun _ => 0)
  rw [over_zero_one, over_zero_zero] at e1 e2 e3
  have dR : ∀ c ∈ rs, dimAt r.dims (positions c rs) = .ok (lr c) := fun c hc => by rw [hrd, dimAt_eq c rs lr hc]
  have dX : ∀ c ∈ xs, dimAt x.dims (positions c xs) = .ok (lx c) := fun c hc => by rw [hxd, dimAt_eq c xs lx hc]
  have dY : ∀ c ∈ ys, dimAt y.dims (positions c ys) = .ok (ly c) := fun c hc => by rw [hyd, dimAt_eq c ys ly hc]
  have cR : ∀ c, combine r.strides (positions c rs) = .ok (comb c rs r.strides) := fun c => combine_eq c rs _ hrl
  have cX : ∀ c, combine x.strides (positions c xs) = .ok (comb c xs x.strides) := fun c => combine_eq c xs _ hxl
  have cY : ∀ c, combine y.strides (positions c ys) = .ok (comb c ys y.strides) := fun c => combine_eq c ys _ hyl
  simp only [List.length_append] at hT4 hC3
  have hA1 : ∀ c ∈ A1, c ∈ A1 ++ A2 := fun c h => List.mem_append_left _ h
  have hA2 : ∀ c ∈ A2, c ∈ A1 ++ A2 := fun c h => List.mem_append_right _ h
  have hD1 : ∀ c ∈ D1, c ∈ D1 ++ D2 := fun c h => List.mem_append_left _ h
  have hD2 : ∀ c ∈ D2, c ∈ D1 ++ D2 := fun c h => List.mem_append_right _ h
  have hG1 : ∀ c ∈ G1, c ∈ G1 ++ G2 := fun c h => List.mem_append_left _ h
  have hG2 : ∀ c ∈ G2, c ∈ G1 ++ G2 := fun c h => List.mem_append_right _ h
  let p : P2 := { xsd := ext (SX.map lx), xss := str (SX.map (comb · xs x.strides)), ysd := ext (SY.map ly), yss := str (SY.map (comb · ys y.strides)), bd := ext (B.map lr), bs := str (B.map (comb · rs r.strides)) }
  have p0 : p = p.setT [] [] [] [] := rfl
  have t1 := transfer1_eq2 A1 (positions · xs) (positions · rs) lr (comb · xs x.strides) (comb · rs r.strides)
    x r [] [] [] [] (fun c hc => dR c (hA c (hA1 c hc)).1) (fun c _ => cX c) (fun c _ => cR c) rfl rfl
    (by simp; omega) p
  have t2 := transfer1_eq2 A2 (positions · xs) (positions · rs) lr (comb · xs x.strides) (comb · rs r.strides)
    x r ([] ++ A1.map lr) ([] ++ A1.map (comb · xs x.strides))
    ([] ++ A1.map fun _ => 0) ([] ++ A1.map (comb · rs r.strides))
    (fun c hc => dR c (hA c (hA2 c hc)).1) (fun c _ => cX c) (fun c _ => cR c) (by simp) (by simp)
    (by simp; omega) p
  have t3 := transfer2_eq2 D1 (positions · ys) (positions · rs) lr (comb · ys y.strides) (comb · rs r.strides)
    y r ([] ++ A1.map lr ++ A2.map lr)
    ([] ++ A1.map (comb · xs x.strides) ++ A2.map (comb · xs x.strides))
    (([] ++ A1.map fun _ => 0) ++ A2.map fun _ => 0)
    ([] ++ A1.map (comb · rs r.strides) ++ A2.map (comb · rs r.strides))
    (fun c hc => dR c (hD c (hD1 c hc)).1) (fun c _ => cY c) (fun c _ => cR c) (by simp) (by simp)
    (by simp; omega) p
  have t4 := transfer2_eq2 D2 (positions · ys) (positions · rs) lr (comb · ys y.strides) (comb · rs r.strides)
    y r ([] ++ A1.map lr ++ A2.map lr ++ D1.map lr)
    (([] ++ A1.map (comb · xs x.strides) ++ A2.map (comb · xs x.strides)) ++ D1.map fun _ => 0)
    ((([] ++ A1.map fun _ => 0) ++ A2.map fun _ => 0) ++ D1.map (comb · ys y.strides))
    ([] ++ A1.map (comb · rs r.strides) ++ A2.map (comb · rs r.strides) ++ D1.map (comb · rs r.strides))
    (fun c hc => dR c (hD c (hD2 c hc)).1) (fun c _ => cY c) (fun c _ => cR c) (by simp [Nat.add_assoc]) (by simp [Nat.add_assoc])
    (by simp; omega) p
  have t5 := transfer12_eq2 E (positions · xs) (positions · ys) (positions · rs) lx (comb · xs x.strides)
    (comb · ys y.strides) (comb · rs r.strides)
    x y r ([] ++ A1.map lr ++ A2.map lr ++ D1.map lr ++ D2.map lr)
    ((([] ++ A1.map (comb · xs x.strides) ++ A2.map (comb · xs x.strides)) ++ D1.map fun _ => 0) ++ D2.map fun _ => 0)
    ((([] ++ A1.map fun _ => 0) ++ A2.map fun _ => 0) ++ D1.map (comb · ys y.strides) ++ D2.map (comb · ys y.strides))
    ([] ++ A1.map (comb · rs r.strides) ++ A2.map (comb · rs r.strides) ++ D1.map (comb · rs r.strides) ++
      D2.map (comb · rs r.strides))
    (fun c hc => dX c (hE c hc).2.1) (fun c _ => cX c) (fun c _ => cY c) (fun c _ => cR c) (by simp [Nat.add_assoc]) (by simp [Nat.add_assoc])
    (by simp [Nat.add_assoc]) (by simp; omega) p
  set q := p.setT ([] ++ A1.map lr ++ A2.map lr ++ D1.map lr ++ D2.map lr ++ E.map lx)
    (((([] ++ A1.map (comb · xs x.strides) ++ A2.map (comb · xs x.strides)) ++ D1.map fun _ => 0) ++ D2.map fun _ => 0) ++
      E.map (comb · xs x.strides))
    ((([] ++ A1.map fun _ => 0) ++ A2.map fun _ => 0) ++ D1.map (comb · ys y.strides) ++ D2.map (comb · ys y.strides) ++
      E.map (comb · ys y.strides))
    ([] ++ A1.map (comb · rs r.strides) ++ A2.map (comb · rs r.strides) ++ D1.map (comb · rs r.strides) ++
      D2.map (comb · rs r.strides) ++ E.map (comb · rs r.strides)) with hq
  have q0 : q = q.setC [] [] [] := rfl
  have c1 := contract_eq G1 (positions · xs) (positions · ys) lx ly (comb · xs x.strides) (comb · ys y.strides)
    x y [] [] [] (fun c hc => dX c (hG c (hG1 c hc)).1) (fun c hc => dY c (hG c (hG1 c hc)).2.1) (fun c _ => cX c)
    (fun c _ => cY c) rfl rfl (by simp; omega) q
  have c2 := contract_eq G2 (positions · xs) (positions · ys) lx ly (comb · xs x.strides) (comb · ys y.strides)
    x y ([] ++ G1.map fun c => min (lx c) (ly c)) ([] ++ G1.map (comb · xs x.strides))
    ([] ++ G1.map (comb · ys y.strides))
    (fun c hc => dX c (hG c (hG2 c hc)).1) (fun c hc => dY c (hG c (hG2 c hc)).2.1) (fun c _ => cX c)
    (fun c _ => cY c) (by simp) (by simp) (by simp; omega) q
  unfold gparams
  simp only [Res.ok_bind, e1, e2, e3]
  change (P2.transfer1 0 _ x r p >>= _) = _
  rw [p0, show (0 : Nat) = ([] : List Nat).length from rfl, t1]
  simp only [Res.ok_bind, t2, t3, t4, t5]
  rw [q0, c1]
  simp only [Res.ok_bind, c2]
  congr 1
  -- compare the lists
  have zA : ∀ {A : List Char}, (∀ c ∈ A, c ∈ A1 ++ A2) → (A.map fun _ => 0) = A.map (tstr NY ys y.strides) := fun hA' =>
    List.map_congr_left fun c hc => by
      unfold tstr
      split
      · rfl
      · rename_i h
        rw [comb_not_mem fun h' => h ((hA c (hA' c hc)).2.2.1 h')]
  have sA : ∀ {A : List Char}, (∀ c ∈ A, c ∈ A1 ++ A2) → A.map (comb · xs x.strides) = A.map (tstr NX xs x.strides) := fun hA' =>
    List.map_congr_left fun c hc => by rw [tstr, if_neg (hA c (hA' c hc)).2.2.2]
  have zD : ∀ {A : List Char}, (∀ c ∈ A, c ∈ D1 ++ D2) → (A.map fun _ => 0) = A.map (tstr NX xs x.strides) := fun hA' =>
    List.map_congr_left fun c hc => by
      unfold tstr
      split
      · rfl
      · rename_i h
        rw [comb_not_mem fun h' => h ((hD c (hA' c hc)).2.2.1 h')]
  have sD : ∀ {A : List Char}, (∀ c ∈ A, c ∈ D1 ++ D2) → A.map (comb · ys y.strides) = A.map (tstr NY ys y.strides) := fun hA' =>
    List.map_congr_left fun c hc => by rw [tstr, if_neg (hD c (hA' c hc)).2.2.2]
  have l1 : E.map lx = E.map lr := List.map_congr_left fun c hc => (hE c hc).2.2.2.2.2
  have l2 : E.map (comb · xs x.strides) = E.map (tstr NX xs x.strides) := List.map_congr_left fun c hc => by
    rw [tstr, if_neg (hE c hc).2.2.2.1]
  have l3 : E.map (comb · ys y.strides) = E.map (tstr NY ys y.strides) := List.map_congr_left fun c hc => by
    rw [tstr, if_neg (hE c hc).2.2.2.2.1]
  have l4 : (G1.map fun c => min (lx c) (ly c)) = G1.map lc := List.map_congr_left fun c hc => (hG c (hG1 c hc)).2.2
  have l5 : (G2.map fun c => min (lx c) (ly c)) = G2.map lc := List.map_congr_left fun c hc => (hG c (hG2 c hc)).2.2
  rw [hq]
  simp only [P2.setT, P2.setC, lparams, List.map_append, List.nil_append]
  rw [zA hA1, zA hA2, sA hA1, sA hA2, zD hD1, zD hD2, sD hD1, sD hD2, l1, l2, l3, l4, l5]

theorem makeParams_eq {xs ys rs : List Char} (hx : '_' ∉ xs) (hy : '_' ∉ ys) (hr : '_' ∉ rs) (hs : NoSpecial xs ys rs)
    (hf : Few xs ys rs) {lx ly lr : Char → Nat} (hl : Sizes xs ys rs lx ly lr) (r x y : View)
    (hrd : r.dims = rs.map lr) (hxd : x.dims = xs.map lx) (hyd : y.dims = ys.map ly) (hrw : r.WF) (hxw : x.WF) (hyw : y.WF) :
    makeParams (form2 xs ys rs) r x y = .ok
      { td := ext ((transferLetters xs ys rs).map lr),
        tsx := str ((transferLetters xs ys rs).map (tstr [] xs x.strides)),
        tsy := str ((transferLetters xs ys rs).map (tstr (convs xs ys rs) ys y.strides)),
        tsr := str ((transferLetters xs ys rs).map (comb · rs r.strides)),
        xsd := ext ((inNone xs rs ys).map lx), xss := str ((inNone xs rs ys).map (comb · xs x.strides)),
        ysd := ext ((inNone ys rs xs).map ly), yss := str ((inNone ys rs xs).map (comb · ys y.strides)),
        cd := ext ((contractLetters xs ys rs).map ly),
        csx := str ((contractLetters xs ys rs).map (comb · xs x.strides)),
        csy := str ((contractLetters xs ys rs).map (comb · ys y.strides)),
        bd := ext ((inNone rs xs ys).map lr), bs := str ((inNone rs xs ys).map (comb · rs r.strides)) } := by
  have hft := hf.transfer' hs
  obtain ⟨a1, a2, a3, a4, a5, a6, a7, a8, a9⟩ := form2_groups hx hy hr hs
  have := gparams_eq rs xs ys (inNone xs rs ys) (inNone ys rs xs) (inNone rs xs ys) (inFirst rs xs ys) (convs xs ys rs)
    (inFirst rs ys xs) [] (plain3 xs ys rs) (inFirst xs ys rs) (convs xs ys rs) [] (convs xs ys rs) lr lx ly ly r x y hrd hxd
    hyd hrw hxw hyw (fun c hc => (mem_inNone.1 hc).1) (fun c hc => (mem_inNone.1 hc).1) (fun c hc => (mem_inNone.1 hc).1)
    hf.xsum hf.ysum hf.bcast
    (by
      intro c hc
      rcases List.mem_append.1 hc with h | h
      · have := mem_inFirst.1 h
        exact ⟨this.1, this.2.1, fun h' => absurd h' this.2.2, by simp⟩
      · have := (mem_convs.1 h).1
        exact ⟨this.1, this.2.1, fun _ => h, by simp⟩)
    (by
      intro c hc
      rw [List.append_nil] at hc
      have := mem_inFirst.1 hc
      exact ⟨this.1, this.2.1, fun h' => absurd h' this.2.2, fun h => this.2.2 (mem_convs.1 h).1.2.1⟩)
    (by
      intro c hc
      have h := (mem_plain3.1 hc).1
      exact ⟨h.1, h.2.1, h.2.2, by simp, plain3_not_conv hc, hl.xr c h.2.1 h.1 (plain3_not_conv hc)⟩)
    (by
      intro c hc
      rcases List.mem_append.1 hc with h | h
      · have := mem_inFirst.1 h
        exact ⟨this.1, this.2.1, by rw [hl.xy c this.1 this.2.1 this.2.2, Nat.min_self]⟩
      · have := (mem_convs.1 h).1
        exact ⟨this.2.1, this.2.2, Nat.min_eq_right (hl.conv c h).1⟩)
    (by simp; omega) (by have := hf.contract; simp; omega)
  unfold makeParams
  rw [check_ok hx hy hr hs hf, a1, a2, a3, a4, a5, a6, a7, a9, Res.ok_bind]
  simp only [List.map_map, Function.comp_def]
  simp only [gparams, List.map_nil, P2.transfer2, Res.ok_bind, lparams, List.append_nil] at this
  exact this

end Einsum
end Cnine
