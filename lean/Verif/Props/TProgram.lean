import Verif.Lemmas.TProgram

/-!
# C192–C195: tensor programs

hpc/TensorProgram.hpp with `GatherRows`.  Variable `i` of the program is a matrix of `n i` rows of length `w i`; a run on tensors
whose rows are `nc` times as long works with rows of length `w i * nc`.
-/

namespace Cnine

namespace TProg

variable {α M : Type}

/-- A program of row gatherings that makes sense for width factor `nc`. -/
structure Good (p : TProg GMap) (n w : Nat → Nat) (nc : Nat) : Prop where
  shape : ∀ i, i < p.vars.length → p.vars[i]? = some [n i, w i]
  iv : p.inputvar < p.vars.length
  ov : p.outputvar < p.vars.length
  ne : p.inputvar ≠ p.outputvar
  div : (if p.ncFromOutput then w p.outputvar else w p.inputvar) ≠ 0
  instr : ∀ e ∈ p.instrs, InstrOk p.vars.length n (fun i => w i * nc) e

/-- No instruction divides rows into blocks. -/
def Whole (p : TProg GMap) : Prop := ∀ e ∈ p.instrs, e.map.outCols = 1 ∧ e.map.inCols = 1

/-- A matrix of `n` rows of length `P` with cells of its own, that holds `f`; rows without gaps unless `b`. -/
structure Mat (b : Prop) (v : View) (n P : Nat) (f : Nat → Nat → α) (m : Buf α) : Prop where
  dims : v.dims = [n, P]
  strides : ∃ s0 s1, v.strides = [s0, s1] ∧ (b ∨ s0 = P * s1)
  inj : ∀ r k r' k', r < n → k < P → r' < n → k' < P → v.cell [r, k] = v.cell [r', k'] → (r, k) = (r', k')
  val : ∀ r k, r < n → k < P → m (v.cell [r, k]) = some (f r k)

/-- The tensors given to a run: `output` holds `y`, `input` holds `x`, they do not meet, and the temporaries get memory that is
free. -/
structure Given (p : TProg GMap) (q n P : Nat → Nat) (output input : View) (y x : Nat → Nat → α) (m : Buf α) : Prop where
  out : Mat (Whole p) output (n p.outputvar) (P p.outputvar) y m
  inp : Mat (Whole p) input (n p.inputvar) (P p.inputvar) x m
  apart : ∀ r k r' k', r < n p.outputvar → k < P p.outputvar → r' < n p.inputvar → k' < P p.inputvar →
    output.cell [r, k] ≠ input.cell [r', k']
  free : ∀ i, i < p.vars.length → Temp p i → ∀ c, q i ≤ c → c < q i + n i * P i → m c = none
  blocks : ∀ i j, i < p.vars.length → j < p.vars.length → Temp p i → Temp p j → ∀ c, q i ≤ c → c < q i + n i * P i →
    q j ≤ c → c < q j + n j * P j → i = j

/-- The values a run starts with: `x` in the input variable, `y` in the output variable, zero elsewhere. -/
def start [Zero α] (p : TProg M) (y x : Nat → Nat → α) : Loc → α := fun a =>
  if a.1 = p.inputvar then x a.2.1 a.2.2 else if a.1 = p.outputvar then y a.2.1 a.2.2 else 0

/-- The values at the end: the instructions one after the other, each adding blocks of rows. -/
def final [AddCommMonoid α] (p : TProg GMap) (P : Nat → Nat) (y x : Nat → Nat → α) : Loc → α :=
  steps (p.instrs.map (moves P)) (start p y x)

theorem temp_cell {n P q r k : Nat} (hr : r < n) (hk : k < P) :
    q ≤ (View.mk q [n, P] [P, 1]).cell [r, k] ∧ (View.mk q [n, P] [P, 1]).cell [r, k] < q + n * P := by
  rw [cell2 rfl]
  dsimp only
  refine ⟨by omega, ?_⟩
  have : P * r + P ≤ n * P := by
    calc P * r + P = (r + 1) * P := by rw [Nat.add_mul, Nat.one_mul, Nat.mul_comm]
      _ ≤ n * P := Nat.mul_le_mul_right _ hr
  omega

theorem temp_inj {n P q r k r' k' : Nat} (hk : k < P) (hk' : k' < P)
    (h : (View.mk q [n, P] [P, 1]).cell [r, k] = (View.mk q [n, P] [P, 1]).cell [r', k']) : (r, k) = (r', k') := by
  rw [cell2 rfl, cell2 rfl] at h
  dsimp only at h
  have h' : P * r + k = P * r' + k' := by omega
  have h1 : r = r' := by
    have := congrArg (· / P) h'
    rw [Nat.mul_add_div (by omega), Nat.mul_add_div (by omega), Nat.div_eq_of_lt hk, Nat.div_eq_of_lt hk'] at this
    omega
  subst h1
  rw [Prod.mk.injEq]
  exact ⟨rfl, by omega⟩

theorem layout_of {p : TProg GMap} {q n P : Nat → Nat} {output input : View} {y x : Nat → Nat → α} {m : Buf α}
    (hne : p.inputvar ≠ p.outputvar) (h : Given p q n P output input y x m) :
    Layout (Whole p) p.vars.length n P (place p q n P output input) := by
  have pi : place p q n P output input p.inputvar = input := by unfold place; rw [if_pos rfl]
  have po : place p q n P output input p.outputvar = output := by unfold place; rw [if_neg fun h => hne h.symm, if_pos rfl]
  have pt : ∀ i, Temp p i → place p q n P output input i = ⟨q i, [n i, P i], [P i, 1]⟩ := fun i hi => by
    unfold place; rw [if_neg hi.1, if_neg hi.2]
  have cases : ∀ i, i = p.inputvar ∨ i = p.outputvar ∨ Temp p i := fun i => by unfold Temp; omega
  have tempApart : ∀ i r k, i < p.vars.length → Temp p i → r < n i → k < P i →
      m ((View.mk (q i) [n i, P i] [P i, 1]).cell [r, k]) = none := fun i r k hi hT hr hk =>
    h.free i hi hT _ (temp_cell hr hk).1 (temp_cell hr hk).2
  refine ⟨fun i hi => ?_, fun i hi => ?_, fun i j r k r' k' hi hj hr hk hr' hk' e => ?_⟩
  · rcases cases i with rfl | rfl | hT
    · rw [pi, h.inp.dims]
    · rw [po, h.out.dims]
    · rw [pt i hT]
  · rcases cases i with rfl | rfl | hT
    · rw [pi]; exact h.inp.strides
    · rw [po]; exact h.out.strides
    · rw [pt i hT]; exact ⟨P i, 1, rfl, .inr (by omega)⟩
  · rcases cases i with rfl | rfl | hT <;> rcases cases j with rfl | rfl | hT'
    · rw [pi] at e
      rw [h.inp.inj _ _ _ _ hr hk hr' hk' e]
    · rw [pi, po] at e
      exact absurd e.symm (h.apart _ _ _ _ hr' hk' hr hk)
    · rw [pi, pt j hT'] at e
      have h1 := h.inp.val r k hr hk
      rw [e, tempApart j r' k' hj hT' hr' hk'] at h1
      cases h1
    · rw [pi, po] at e
      exact absurd e (h.apart _ _ _ _ hr hk hr' hk')
    · rw [po] at e
      rw [h.out.inj _ _ _ _ hr hk hr' hk' e]
    · rw [po, pt j hT'] at e
      have h1 := h.out.val r k hr hk
      rw [e, tempApart j r' k' hj hT' hr' hk'] at h1
      cases h1
    · rw [pi, pt i hT] at e
      have h1 := h.inp.val r' k' hr' hk'
      rw [← e, tempApart i r k hi hT hr hk] at h1
      cases h1
    · rw [po, pt i hT] at e
      have h1 := h.out.val r' k' hr' hk'
      rw [← e, tempApart i r k hi hT hr hk] at h1
      cases h1
    · rw [pt i hT, pt j hT'] at e
      have c1 := temp_cell (q := q i) hr hk
      have c2 := temp_cell (q := q j) hr' hk'
      rw [← e] at c2
      have hij := h.blocks i j hi hj hT hT' _ c1.1 c1.2 c2.1 c2.2
      subst hij
      rw [temp_inj hk hk' e]

theorem check_ok {p : TProg GMap} {n w : Nat → Nat} {nc : Nat} {output input : View} (hg : Good p n w nc)
    (ho : output.dims = [n p.outputvar, w p.outputvar * nc]) (hi : input.dims = [n p.inputvar, w p.inputvar * nc]) :
    check p output input = .ok nc := by
  unfold check
  rw [decide_eq_true hg.iv, Res.assrt_true, Res.ok_bind, decide_eq_true hg.ov, Res.assrt_true, Res.ok_bind, Res.get, hg.shape _ hg.iv,
    Res.get, hg.shape _ hg.ov]
  dsimp only
  rw [Res.ok_bind, Res.ok_bind]
  have hr : factor p output input [n p.outputvar, w p.outputvar] [n p.inputvar, w p.inputvar] = .ok nc := by
    unfold factor
    have := hg.div
    by_cases hf : p.ncFromOutput
    · rw [if_pos hf] at this ⊢
      rw [ho]
      simp [ratio, back, this, Nat.mul_div_cancel_left nc (Nat.pos_of_ne_zero this)]
    · rw [if_neg hf] at this ⊢
      rw [hi]
      simp [ratio, back, this, Nat.mul_div_cancel_left nc (Nat.pos_of_ne_zero this)]
  rw [hr, Res.ok_bind, scaleLast2, hi, ho, scaleLast2]
  simp

/-- Everything about a run at once. -/
theorem run_ok [AddCommMonoid α] {p : TProg GMap} {q n w : Nat → Nat} {nc : Nat} {output input : View} {y x : Nat → Nat → α}
    {m : Buf α} (hg : Good p n w nc) (h : Given p q n (fun i => w i * nc) output input y x m) :
    ∃ m', run gatherRows p q output input m = .ok (m', [input, output]) ∧
      (∀ r k, r < n p.outputvar → k < w p.outputvar * nc → m' (output.cell [r, k]) =
        some (final p (fun i => w i * nc) y x (p.outputvar, r, k))) ∧
      (∀ r k, r < n p.inputvar → k < w p.inputvar * nc → m' (input.cell [r, k]) =
        some (final p (fun i => w i * nc) y x (p.inputvar, r, k))) ∧
      ∀ c, (∀ r k, r < n p.outputvar → k < w p.outputvar * nc → c ≠ output.cell [r, k]) →
        (∀ r k, r < n p.inputvar → k < w p.inputvar * nc → c ≠ input.cell [r, k]) → m' c = m c := by
  have hV := layout_of hg.ne h
  obtain ⟨m1, e1, h1, h2⟩ := slots_ok (q := q) (nc := nc) (output := output) (input := input) m hg.shape hg.ne hg.iv hg.ov
    p.vars.length (Nat.le_refl _)
    (((List.replicate p.vars.length none).set p.inputvar (some 0)).set p.outputvar (some 1)) (by simp)
  have pi : place p q n (fun i => w i * nc) output input p.inputvar = input := by unfold place; rw [if_pos rfl]
  have po : place p q n (fun i => w i * nc) output input p.outputvar = output := by
    unfold place; rw [if_neg fun h => hg.ne h.symm, if_pos rfl]
  have pt : ∀ i, Temp p i → place p q n (fun i => w i * nc) output input i = ⟨q i, [n i, w i * nc], [w i * nc, 1]⟩ := fun i hi => by
    unfold place; rw [if_neg hi.1, if_neg hi.2]
  have cases : ∀ i, i = p.inputvar ∨ i = p.outputvar ∨ Temp p i := fun i => by unfold Temp; omega
  have notTemp : ∀ c, m c ≠ none → ¬ InTemp p q n (fun i => w i * nc) p.vars.length c := by
    rintro c hc ⟨i, a, b, d1, d2⟩
    exact hc (h.free i a b c d1 d2)
  have hH : Holds p.vars.length n (fun i => w i * nc) (place p q n (fun i => w i * nc) output input) (start p y x) m1 := by
    intro i r k hi hr hk
    unfold start
    dsimp only
    rcases cases i with rfl | rfl | hT
    · rw [pi, if_pos rfl, h2 _ (notTemp _ (by rw [h.inp.val r k hr hk]; simp)), h.inp.val r k hr hk]
    · rw [po, if_neg fun h => hg.ne h.symm, if_pos rfl, h2 _ (notTemp _ (by rw [h.out.val r k hr hk]; simp)), h.out.val r k hr hk]
    · rw [pt i hT, if_neg hT.1, if_neg hT.2]
      exact h1 _ ⟨i, hi, hT, (temp_cell hr hk).1, (temp_cell hr hk).2⟩
  obtain ⟨m2, e2, h3, h4⟩ := execs_ok (u := input) (v := output) hV p.instrs (start p y x) m1 hg.instr (fun e he hb => hb e he) hH
  obtain ⟨m3, e3, h5, h6⟩ := cleanup_ok (q := q) (nc := nc) m2 hg.shape p.vars.length (Nat.le_refl _)
  refine ⟨m3, ?_, ?_, ?_, ?_⟩
  · unfold run
    rw [check_ok hg h.out.dims h.inp.dims, Res.ok_bind]
    dsimp only
    have e0 : Heap.new (Heap.new ⟨[], List.replicate p.vars.length none⟩ p.inputvar input) p.outputvar output =
        ⟨[input, output], ((List.replicate p.vars.length none).set p.inputvar (some 0)).set p.outputvar (some 1)⟩ := rfl
    rw [e0, e1, Res.ok_bind]
    dsimp only
    rw [List.drop_eq_nil_of_le (by simp), List.append_nil, e2, Res.ok_bind, e3, Res.ok_bind, leaked_eq _ _ _ _ (by simp)]
  · intro r k hr hk
    have := h3 _ r k hg.ov hr hk
    rw [po] at this
    rw [h6 _ (notTemp _ (by rw [h.out.val r k hr hk]; simp)), this]
    rfl
  · intro r k hr hk
    have := h3 _ r k hg.iv hr hk
    rw [pi] at this
    rw [h6 _ (notTemp _ (by rw [h.inp.val r k hr hk]; simp)), this]
    rfl
  · intro c hco hci
    by_cases hT : InTemp p q n (fun i => w i * nc) p.vars.length c
    · rw [h5 c hT]
      obtain ⟨i, a, b, d1, d2⟩ := hT
      exact (h.free i a b c d1 d2).symm
    · rw [h6 c hT, h4 c, h2 c hT]
      intro i r k hi hr hk
      rcases cases i with rfl | rfl | hT'
      · rw [pi]; exact hci r k hr hk
      · rw [po]; exact hco r k hr hk
      · rw [pt i hT']
        rintro rfl
        exact hT ⟨i, hi, hT', (temp_cell hr hk).1, (temp_cell hr hk).2⟩

/-! ## C192: what a run computes -/

/-- C192: a run ends with the instructions carried out one after the other on matrices of values (temporaries start at zero): each
adds, for every pair (t,s) of its map, block `s` of its source to block `t` of its target.  Input and output hold the final values
of their variables, and nothing else in memory has changed; the temporaries' memory is free again. -/
theorem C192_run [AddCommMonoid α] {p : TProg GMap} {q n w : Nat → Nat} {nc : Nat} {output input : View} {y x : Nat → Nat → α}
    {m : Buf α} (hg : Good p n w nc) (h : Given p q n (fun i => w i * nc) output input y x m) :
    ∃ m' l, run gatherRows p q output input m = .ok (m', l) ∧
      (∀ r k, r < n p.outputvar → k < w p.outputvar * nc → m' (output.cell [r, k]) =
        some (final p (fun i => w i * nc) y x (p.outputvar, r, k))) ∧
      (∀ r k, r < n p.inputvar → k < w p.inputvar * nc → m' (input.cell [r, k]) =
        some (final p (fun i => w i * nc) y x (p.inputvar, r, k))) ∧
      ∀ c, (∀ r k, r < n p.outputvar → k < w p.outputvar * nc → c ≠ output.cell [r, k]) →
        (∀ r k, r < n p.inputvar → k < w p.inputvar * nc → c ≠ input.cell [r, k]) → m' c = m c := by
  obtain ⟨m', e, h'⟩ := run_ok hg h
  exact ⟨m', _, e, h'⟩

theorem steps_other [AddCommMonoid α] (i : Nat) : ∀ (mss : List (List (Loc × Loc))) (σ : Loc → α),
    (∀ ms ∈ mss, ∀ d ∈ ms, d.1.1 ≠ i) → ∀ r k, steps mss σ (i, r, k) = σ (i, r, k)
  | [], _, _, _, _ => rfl
  | ms :: mss, σ, h, r, k => by
    show steps mss (step ms σ) (i, r, k) = _
    rw [steps_other i mss _ (fun ms' h' => h ms' (by simp [h'])) r k]
    unfold step
    rw [List.sum_eq_zero, add_zero]
    intro v hv
    obtain ⟨d, hd, rfl⟩ := List.mem_map.1 hv
    rw [if_neg]
    intro e
    exact h ms (by simp) d hd (by rw [← e])

/-- C192: a variable no instruction writes keeps its value; so the input is left alone by programs that do not write it. -/
theorem C192_unwritten [AddCommMonoid α] (p : TProg GMap) (P : Nat → Nat) (y x : Nat → Nat → α) (i : Nat)
    (h : ∀ e ∈ p.instrs, e.out.toNat ≠ i) (r k : Nat) : final p P y x (i, r, k) = start p y x (i, r, k) := by
  unfold final
  apply steps_other
  intro ms hms d hd
  obtain ⟨e, he, rfl⟩ := List.mem_map.1 hms
  unfold moves at hd
  obtain ⟨ed, _, hd⟩ := List.mem_flatMap.1 hd
  obtain ⟨k', _, rfl⟩ := List.mem_map.1 hd
  exact h e he

/-- C192: tensors whose shapes are not those of the variables with the last size multiplied by the common factor are refused. -/
theorem C192_refuses [Zero α] (op : M → View → View → Buf α → Res (Buf α)) (p : TProg M) (q : Nat → Nat) (output input : View)
    (m : Buf α) {n w : Nat → Nat} (hs : ∀ i, i < p.vars.length → p.vars[i]? = some [n i, w i])
    (hd : (if p.ncFromOutput then w p.outputvar else w p.inputvar) ≠ 0) {nc : Nat} {l : Nat}
    (hl : (if p.ncFromOutput then output.dims else input.dims).getLast? = some l)
    (hnc : nc = l / (if p.ncFromOutput then w p.outputvar else w p.inputvar))
    (h : p.vars.length ≤ p.inputvar ∨ p.vars.length ≤ p.outputvar ∨ input.dims ≠ [n p.inputvar, w p.inputvar * nc] ∨
      output.dims ≠ [n p.outputvar, w p.outputvar * nc]) : run op p q output input m = .throw := by
  have : check p output input = .throw := by
    unfold check
    by_cases h1 : p.inputvar < p.vars.length
    · by_cases h2 : p.outputvar < p.vars.length
      · have hr : factor p output input [n p.outputvar, w p.outputvar] [n p.inputvar, w p.inputvar] = .ok nc := by
          unfold factor
          by_cases hf : p.ncFromOutput
          · rw [if_pos hf] at hd hl hnc ⊢
            simp [ratio, back, hl, hd, hnc]
          · rw [if_neg hf] at hd hl hnc ⊢
            simp [ratio, back, hl, hd, hnc]
        rw [decide_eq_true h1, Res.assrt_true, Res.ok_bind, decide_eq_true h2, Res.assrt_true, Res.ok_bind, Res.get, hs _ h1,
          Res.get, hs _ h2]
        dsimp only
        rw [Res.ok_bind, Res.ok_bind, hr, Res.ok_bind, scaleLast2, scaleLast2]
        by_cases h3 : input.dims = [n p.inputvar, w p.inputvar * nc]
        · have h4 : output.dims ≠ [n p.outputvar, w p.outputvar * nc] := by
            rcases h with h | h | h | h
            · omega
            · omega
            · exact absurd h3 h
            · exact h
          rw [h3, decide_eq_true (by rfl), Res.assrt_true, Res.ok_bind, Res.ok_bind, decide_eq_true rfl, Res.assrt_true, Res.ok_bind,
            Res.ok_bind, decide_eq_false h4]
          cases decide (output.dims.length = [n p.outputvar, w p.outputvar].length) <;> rfl
        · simp only [Res.ok_bind]
          rw [decide_eq_false h3]
          cases decide (input.dims.length = [n p.inputvar, w p.inputvar].length) <;> rfl
      · rw [decide_eq_false h2, decide_eq_true h1]
        rfl
    · rw [decide_eq_false h1]
      rfl
  unfold run
  rw [this]
  rfl

/-! ## C193: the inverse program is the transpose -/

/-- The instruction `e'` does what `e` does with target and source exchanged. -/
def Flip (P : Nat → Nat) (e e' : Instr GMap) : Prop := (moves P e').Perm (swapped (moves P e))

theorem flip_inv {N : Nat} {n P : Nat → Nat} {e : Instr GMap} (h : InstrOk N n P e) :
    ∃ e', e.inv GMap.makeInv = .ok e' ∧ InstrOk N n P e' ∧ Flip P e e' := by
  obtain ⟨es, g', es', a1, a2, a3, a4, _, _, _, c1, c2, c3, c4, hm⟩ := GMap.C42_inv h.made
  have ee : edges e.map = es := by unfold edges; rw [a1]
  have ee' : edges g' = es' := by unfold edges; rw [a3]
  refine ⟨⟨e.out, e.inp, g'⟩, ?_, ?_, ?_⟩
  · unfold Instr.inv
    rw [a2]
    rfl
  · refine ⟨h.inp, h.out, h.ne.symm, hm, by rw [c2]; exact h.ic, by rw [c1]; exact h.oc, by rw [c4]; exact h.icn, by rw [c3]; exact h.ocn,
      by rw [c2]; exact h.idvd, by rw [c1]; exact h.odvd, by rw [c1, c2]; exact h.width.symm, fun ed hed => ?_⟩
    dsimp only at hed ⊢
    rw [ee'] at hed
    obtain ⟨d, hd, rfl⟩ := List.mem_map.1 (a4.mem_iff.1 hed)
    have := h.range d (ee ▸ hd)
    rw [c1, c2]
    exact ⟨this.2, this.1⟩
  · unfold Flip moves swapped
    dsimp only
    rw [ee, ee', c1, c2, List.map_flatMap]
    refine (a4.flatMap_right _).trans ?_
    unfold GatherSpec.reversed
    rw [List.flatMap_map, ← h.width]
    simp only [List.map_map]
    exact List.Perm.of_eq (List.flatMap_congr fun d _ => List.map_congr_left fun k _ => rfl)

theorem invAll_ok {N : Nat} {n P : Nat → Nat} : ∀ (es : List (Instr GMap)), (∀ e ∈ es, InstrOk N n P e) →
    ∃ es', invAll GMap.makeInv es = .ok es' ∧ (∀ e ∈ es', InstrOk N n P e) ∧ List.Forall₂ (Flip P) es es'
  | [], _ => ⟨[], rfl, by simp, .nil⟩
  | e :: es, h => by
    obtain ⟨e', h1, h2, h3⟩ := flip_inv (h e (by simp))
    obtain ⟨es', k1, k2, k3⟩ := invAll_ok es fun e he => h e (by simp [he])
    refine ⟨e' :: es', ?_, ?_, .cons h3 k3⟩
    · unfold invAll
      rw [h1, Res.ok_bind, k1]
      rfl
    · intro a ha
      rcases List.mem_cons.1 ha with rfl | ha
      · exact h2
      · exact k2 a ha

theorem steps_flip [AddCommMonoid α] {P : Nat → Nat} {es es' : List (Instr GMap)} (h : List.Forall₂ (Flip P) es es') :
    ∀ σ : Loc → α, steps (es'.map (moves P)) σ = steps ((es.map (moves P)).map swapped) σ := by
  induction h with
  | nil => intro σ; rfl
  | @cons a b l l' h1 _ ih =>
    intro σ
    show steps (l'.map (moves P)) (step (moves P b) σ) = steps ((l.map (moves P)).map swapped) (step (swapped (moves P a)) σ)
    rw [ih, step_perm h1]

/-- `inv()` of a good program is a good program with input and output exchanged. -/
theorem inv_ok {p : TProg GMap} {n w : Nat → Nat} {nc : Nat} (hg : Good p n w nc) :
    ∃ p', inv GMap.makeInv p = .ok p' ∧ p'.vars = p.vars ∧ p'.inputvar = p.outputvar ∧ p'.outputvar = p.inputvar ∧
      p'.ncFromOutput = !p.ncFromOutput ∧ (∀ e ∈ p'.instrs, InstrOk p.vars.length n (fun i => w i * nc) e) ∧
      List.Forall₂ (Flip fun i => w i * nc) p.instrs.reverse p'.instrs := by
  obtain ⟨es', k1, k2, k3⟩ := invAll_ok p.instrs.reverse fun e he => hg.instr e (List.mem_reverse.1 he)
  refine ⟨⟨p.outputvar, p.inputvar, !p.ncFromOutput, p.vars, es'⟩, ?_, rfl, rfl, rfl, rfl, k2, k3⟩
  unfold inv
  rw [Res.get, hg.shape _ hg.iv, Res.get, hg.shape _ hg.ov]
  dsimp only
  rw [Res.ok_bind, Res.ok_bind, k1]
  rfl

theorem inv_good {p p' : TProg GMap} {n w : Nat → Nat} {nc : Nat} (hg : Good p n w nc) (hi : inv GMap.makeInv p = .ok p') :
    Good p' n w nc := by
  obtain ⟨p'', e, h1, h2, h3, h4, h5, _⟩ := inv_ok hg
  rw [hi] at e
  cases e
  refine ⟨by rw [h1]; exact hg.shape, by rw [h1, h2]; exact hg.ov, by rw [h1, h3]; exact hg.iv, by rw [h2, h3]; exact hg.ne.symm,
    ?_, by rw [h1]; exact h5⟩
  rw [h2, h3, h4]
  have := hg.div
  cases hf : p.ncFromOutput <;> simpa [hf] using this

/-- All places of the variables. -/
def locs (N : Nat) (n P : Nat → Nat) : List Loc :=
  (List.range N).flatMap fun i => (List.range (n i)).flatMap fun r => (List.range (P i)).map fun k => (i, r, k)

theorem mem_locs {N : Nat} {n P : Nat → Nat} {i r k : Nat} : (i, r, k) ∈ locs N n P ↔ i < N ∧ r < n i ∧ k < P i := by
  unfold locs
  simp only [List.mem_flatMap, List.mem_map, List.mem_range, Prod.mk.injEq]
  constructor
  · rintro ⟨i', hi, r', hr, k', hk, rfl, rfl, rfl⟩
    exact ⟨hi, hr, hk⟩
  · rintro ⟨hi, hr, hk⟩
    exact ⟨i, hi, r, hr, k, hk, rfl, rfl, rfl⟩

theorem locs_nodup (N : Nat) (n P : Nat → Nat) : (locs N n P).Nodup := by
  unfold locs
  rw [List.nodup_flatMap]
  refine ⟨fun i _ => ?_, ?_⟩
  · rw [List.nodup_flatMap]
    refine ⟨fun r _ => List.Nodup.map (fun a b h => by simpa using h) List.nodup_range, ?_⟩
    refine List.Pairwise.imp ?_ List.nodup_range
    intro a b hab c h1 h2
    obtain ⟨k, _, rfl⟩ := List.mem_map.1 h1
    obtain ⟨k', _, e⟩ := List.mem_map.1 h2
    simp only [Prod.mk.injEq] at e
    exact hab e.2.1.symm
  · refine List.Pairwise.imp ?_ List.nodup_range
    intro a b hab c h1 h2
    obtain ⟨r, _, h1⟩ := List.mem_flatMap.1 h1
    obtain ⟨k, _, rfl⟩ := List.mem_map.1 h1
    obtain ⟨r', _, h2⟩ := List.mem_flatMap.1 h2
    obtain ⟨k', _, e⟩ := List.mem_map.1 h2
    simp only [Prod.mk.injEq] at e
    exact hab e.1.symm

/-- The sum of products of two matrices of `n` rows of length `P`. -/
def matDot [CommSemiring α] (n P : Nat) (f g : Nat → Nat → α) : α :=
  ((List.range n).map fun r => ((List.range P).map fun k => f r k * g r k).sum).sum

theorem sum_flatMap' [AddCommMonoid α] {β : Type} (f : β → List α) (l : List β) :
    (l.flatMap f).sum = (l.map fun b => (f b).sum).sum := by
  induction l with
  | nil => rfl
  | cons b l ih => rw [List.flatMap_cons, List.sum_append, ih, List.map_cons, List.sum_cons]

theorem pair_locs [CommSemiring α] (N : Nat) (n P : Nat → Nat) (σ τ : Loc → α) : pair (locs N n P) σ τ =
    ((List.range N).map fun i => matDot (n i) (P i) (fun r k => σ (i, r, k)) fun r k => τ (i, r, k)).sum := by
  unfold pair locs matDot
  rw [List.map_flatMap, sum_flatMap']
  congr 1
  apply List.map_congr_left
  intro i _
  rw [List.map_flatMap, sum_flatMap']
  congr 1
  apply List.map_congr_left
  intro r _
  rw [List.map_map]
  rfl

theorem matDot_zero [CommSemiring α] (n P : Nat) (f : Nat → Nat → α) : matDot n P f (fun _ _ => 0) = 0 := by
  unfold matDot
  apply List.sum_eq_zero
  intro v hv
  obtain ⟨r, _, rfl⟩ := List.mem_map.1 hv
  apply List.sum_eq_zero
  intro v hv
  obtain ⟨k, _, rfl⟩ := List.mem_map.1 hv
  rw [mul_zero]

theorem matDot_comm [CommSemiring α] (n P : Nat) (f g : Nat → Nat → α) : matDot n P f g = matDot n P g f := by
  unfold matDot
  simp only [mul_comm]

/-- Values that are zero outside of variable `i`. -/
theorem pair_only [CommSemiring α] {N : Nat} {n P : Nat → Nat} {σ τ : Loc → α} {i : Nat} (hi : i < N)
    (h : ∀ j r k, j ≠ i → τ (j, r, k) = 0) :
    pair (locs N n P) σ τ = matDot (n i) (P i) (fun r k => σ (i, r, k)) fun r k => τ (i, r, k) := by
  rw [pair_locs]
  have : ∀ j ∈ List.range N, matDot (n j) (P j) (fun r k => σ (j, r, k)) (fun r k => τ (j, r, k)) =
      if i = j then matDot (n j) (P j) (fun r k => σ (j, r, k)) (fun r k => τ (j, r, k)) else 0 := by
    intro j _
    by_cases e : i = j
    · rw [if_pos e]
    · rw [if_neg e]
      have : (fun r k => τ (j, r, k)) = fun _ _ => (0 : α) := by
        funext r k
        exact h j r k fun h => e h.symm
      rw [this, matDot_zero]
  rw [List.map_congr_left this, GatherRows.sum_pick (fun j => matDot (n j) (P j) (fun r k => σ (j, r, k)) fun r k => τ (j, r, k)) i _
    List.nodup_range (List.mem_range.2 hi)]

theorem moves_mem {N : Nat} {n P : Nat → Nat} {e : Instr GMap} (h : InstrOk N n P e) :
    ∀ d ∈ moves P e, d.1 ∈ locs N n P ∧ d.2 ∈ locs N n P := by
  intro d hd
  unfold moves at hd
  obtain ⟨ed, hed, hd⟩ := List.mem_flatMap.1 hd
  obtain ⟨k, hk, rfl⟩ := List.mem_map.1 hd
  have hk := List.mem_range.1 hk
  have hr := h.range ed hed
  have k1 := spot_lt (n := n e.out.toNat) (t := ed.1.toNat) h.oc h.odvd (by have := Int.toNat_of_nonneg hr.1.1; have := hr.1.2; push_cast at *; omega) hk
  have k2 := spot_lt (n := n e.inp.toNat) (t := ed.2.toNat) h.ic h.idvd (by have := Int.toNat_of_nonneg hr.2.1; have := hr.2.2; push_cast at *; omega) (h.width ▸ hk)
  have := h.out
  have := h.inp
  exact ⟨mem_locs.2 ⟨by omega, k1.1, k1.2⟩, mem_locs.2 ⟨by omega, k2.1, k2.2⟩⟩

/-- The values computed by a program and by its inverse, from zero outputs, are transposes of each other. -/
theorem final_adjoint [CommSemiring α] {p p' : TProg GMap} {n w : Nat → Nat} {nc : Nat} (hg : Good p n w nc)
    (hi : inv GMap.makeInv p = .ok p') (x y : Nat → Nat → α) :
    matDot (n p.outputvar) (w p.outputvar * nc)
        (fun r k => final p (fun i => w i * nc) (fun _ _ => 0) x (p.outputvar, r, k)) y =
      matDot (n p.inputvar) (w p.inputvar * nc) x
        fun r k => final p' (fun i => w i * nc) (fun _ _ => 0) y (p.inputvar, r, k) := by
  obtain ⟨p'', e, h1, h2, h3, h4, h5, h6⟩ := inv_ok hg
  rw [hi] at e
  cases e
  have sx : start p (fun _ _ => 0) x = fun a => if a.1 = p.inputvar then x a.2.1 a.2.2 else 0 := by
    funext a
    unfold start
    split <;> simp
  have sy : start p' (fun _ _ => 0) y = fun a => if a.1 = p.outputvar then y a.2.1 a.2.2 else 0 := by
    funext a
    unfold start
    rw [h2]
    split <;> simp
  have key := pair_steps (locs_nodup p.vars.length n fun i => w i * nc) (p.instrs.map (moves fun i => w i * nc))
    (start p (fun _ _ => 0) x) (start p' (fun _ _ => 0) y) (by
      intro ms hms d hd
      obtain ⟨e, he, rfl⟩ := List.mem_map.1 hms
      exact moves_mem (hg.instr e he) d hd)
  rw [pair_only hg.ov (by intro j r k hj; rw [sy]; dsimp only; rw [if_neg hj]),
    pair_comm', pair_only hg.iv (by intro j r k hj; rw [sx]; dsimp only; rw [if_neg hj])] at key
  have e1 : (fun r k => start p' (fun _ _ => 0) y (p.outputvar, r, k)) = y := by
    funext r k
    rw [sy]
    simp
  have e2 : (fun r k => start p (fun _ _ => 0) x (p.inputvar, r, k)) = x := by
    funext r k
    rw [sx]
    simp
  rw [e1, e2, matDot_comm _ _ _ x] at key
  unfold final
  rw [key]
  congr 1
  funext r k
  rw [steps_flip h6, ← List.map_reverse]

/-- The number `add_var` returns is that of the new variable, a number no variable had before; the others keep theirs. -/
theorem C192_addVar (p : TProg M) (d : List Nat) : (p.addVar d).1.vars[(p.addVar d).2]? = some d ∧ p.vars[(p.addVar d).2]? = none ∧
    (∀ i, i < p.vars.length → (p.addVar d).1.vars[i]? = p.vars[i]?) ∧ (p.addVar d).1.instrs = p.instrs := by
  refine ⟨by simp [addVar], by simp [addVar], fun i h => ?_, rfl⟩
  simp only [addVar]
  rw [List.getElem?_append_left h]

/-- C193: `inv()` of a good program is a good program; run on zero outputs, the two are transposes of each other:
⟨P x, y⟩ = ⟨x, Pᵀ y⟩ for the matrices they leave in memory. -/
theorem C193_adjoint [CommSemiring α] {p : TProg GMap} {n w : Nat → Nat} {nc : Nat} (hg : Good p n w nc) :
    ∃ p', inv GMap.makeInv p = .ok p' ∧ Good p' n w nc ∧ p'.inputvar = p.outputvar ∧ p'.outputvar = p.inputvar ∧ p'.vars = p.vars ∧
      ∀ (q q' : Nat → Nat) (output input output' input' : View) (x y : Nat → Nat → α) (m m2 : Buf α),
        Given p q n (fun i => w i * nc) output input (fun _ _ => 0) x m →
        Given p' q' n (fun i => w i * nc) output' input' (fun _ _ => 0) y m2 →
        ∃ m' m2' l l' F G, run gatherRows p q output input m = .ok (m', l) ∧ run gatherRows p' q' output' input' m2 = .ok (m2', l') ∧
          (∀ r k, r < n p.outputvar → k < w p.outputvar * nc → m' (output.cell [r, k]) = some (F r k)) ∧
          (∀ r k, r < n p.inputvar → k < w p.inputvar * nc → m2' (output'.cell [r, k]) = some (G r k)) ∧
          matDot (n p.outputvar) (w p.outputvar * nc) F y = matDot (n p.inputvar) (w p.inputvar * nc) x G := by
  obtain ⟨p', e, h1, h2, h3, _⟩ := inv_ok hg
  have hg' := inv_good hg e
  refine ⟨p', e, hg', h2, h3, h1, fun q q' output input output' input' x y m m2 h h' => ?_⟩
  obtain ⟨m', l, k1, k2, _⟩ := C192_run hg h
  obtain ⟨m2', l', j1, j2, _⟩ := C192_run hg' h'
  refine ⟨m', m2', l, l', _, _, k1, j1, k2, ?_, final_adjoint hg e x y⟩
  rw [h3] at j2
  exact j2

/-! ## C194: the inverse of the inverse -/

theorem swapped_swapped (ms : List (Loc × Loc)) : swapped (swapped ms) = ms := by
  unfold swapped
  rw [List.map_map]
  simp

theorem flip_flip {P : Nat → Nat} {es es' es'' : List (Instr GMap)} (h : List.Forall₂ (Flip P) es es')
    (h' : List.Forall₂ (Flip P) es' es'') : List.Forall₂ (fun e e' => (moves P e').Perm (moves P e)) es es'' := by
  induction h generalizing es'' with
  | nil => cases h'; exact .nil
  | cons h1 _ ih =>
    cases h' with
    | cons h2 h3 =>
      refine .cons ?_ (ih h3)
      have := h1.map Prod.swap
      have e := swapped_swapped
      unfold Flip at h1 h2
      refine h2.trans ?_
      have h4 := h1.map Prod.swap
      unfold swapped at h4 e ⊢
      rw [e] at h4
      exact h4

theorem steps_same [AddCommMonoid α] {P : Nat → Nat} {es es' : List (Instr GMap)}
    (h : List.Forall₂ (fun e e' => (moves P e').Perm (moves P e)) es es') :
    ∀ σ : Loc → α, steps (es'.map (moves P)) σ = steps (es.map (moves P)) σ := by
  induction h with
  | nil => intro σ; rfl
  | @cons a b l l' h1 _ ih =>
    intro σ
    show steps (l'.map (moves P)) (step (moves P b) σ) = steps (l.map (moves P)) (step (moves P a) σ)
    rw [step_perm h1, ih]

/-- C194: inverting twice gives a program with the same variables, input, output and flag that computes the same values. -/
theorem C194_involutive [AddCommMonoid α] {p : TProg GMap} {n w : Nat → Nat} {nc : Nat} (hg : Good p n w nc) :
    ∃ p' p'', inv GMap.makeInv p = .ok p' ∧ inv GMap.makeInv p' = .ok p'' ∧ p''.vars = p.vars ∧ p''.inputvar = p.inputvar ∧
      p''.outputvar = p.outputvar ∧ p''.ncFromOutput = p.ncFromOutput ∧
      ∀ y x : Nat → Nat → α, final p'' (fun i => w i * nc) y x = final p (fun i => w i * nc) y x := by
  obtain ⟨p', e, h1, h2, h3, h4, _, h6⟩ := inv_ok hg
  obtain ⟨p'', e', k1, k2, k3, k4, _, k6⟩ := inv_ok (inv_good hg e)
  refine ⟨p', p'', e, e', by rw [k1, h1], by rw [k2, h3], by rw [k3, h2], by rw [k4, h4, Bool.not_not], fun y x => ?_⟩
  have h6' := List.rel_reverse h6
  rw [List.reverse_reverse] at h6'
  have := flip_flip h6' k6
  unfold final
  have es : start p'' y x = start p y x := by
    unfold start
    rw [k2, h3, k3, h2]
  rw [es]
  exact steps_same this _

/-! ## C195: the tensor objects -/

/-- C195 is false: every run makes the tensor objects for input and output twice, and the first two are never deleted (each keeps a
share of the memory of its tensor). -/
theorem C195_leak_fails [AddCommMonoid α] {p : TProg GMap} {q n w : Nat → Nat} {nc : Nat} {output input : View}
    {y x : Nat → Nat → α} {m : Buf α} (hg : Good p n w nc) (h : Given p q n (fun i => w i * nc) output input y x m) :
    ∃ m', run gatherRows p q output input m = .ok (m', [input, output]) := by
  obtain ⟨m', e, _⟩ := run_ok hg h
  exact ⟨m', e⟩

/-! ## An example

Input 3×1, output 2×1, a temporary 2×1, `nc = 2`: the temporary gains rows 1, 2 and 0 of the input, then the output gains the sum of
both rows and the second row. -/

def exOf (x : List (Int × List Int)) : GMap := match GMap.ofMap x 1 1 1 1 with
  | .ok g => g
  | _ => GMap.ofSizes 0 0

def exProg : TProg GMap :=
  (((TProg.make [2, 1] [3, 1]).addVar [2, 1]).1.addMap (exOf [(0, [1, 2]), (1, [0])]) 2 0).addMap (exOf [(1, [0, 1]), (0, [1])]) 1 2

def exN (i : Nat) : Nat := [3, 2, 2].getD i 0

theorem exMade (x : List (Int × List Int)) : GMap.Made (exOf x) := by
  unfold exOf
  split
  · rename_i h
    exact .ofMap h
  · exact .ofSizes 0 0

theorem exGood : Good exProg exN (fun _ => 1) 2 := by
  refine ⟨by decide, by decide, by decide, by decide, by decide, ?_⟩
  intro e he
  have : e = ⟨0, 2, exOf [(0, [1, 2]), (1, [0])]⟩ ∨ e = ⟨2, 1, exOf [(1, [0, 1]), (0, [1])]⟩ := by simpa [exProg, make, addVar, addMap] using he
  rcases this with rfl | rfl
  · exact ⟨by decide, by decide, by decide, exMade [(0, [1, 2]), (1, [0])], by decide, by decide, by decide, by decide, by decide, by decide, by decide, by decide⟩
  · exact ⟨by decide, by decide, by decide, exMade [(1, [0, 1]), (0, [1])], by decide, by decide, by decide, by decide, by decide, by decide, by decide, by decide⟩

def exOut : View := ⟨0, [2, 2], [2, 1]⟩
def exIn : View := ⟨4, [3, 2], [2, 1]⟩
def exMem : Buf Int := fun c => [0, 0, 0, 0, 1, 2, 10, 20, 100, 200][c]?

example : Given exProg (fun _ => 20) exN (fun _ => 1 * 2) exOut exIn (fun _ _ => 0)
    (fun r k => [1, 2, 10, 20, 100, 200].getD (2 * r + k) 0) exMem := by
  refine ⟨⟨rfl, ⟨2, 1, rfl, .inr rfl⟩, ?_, ?_⟩, ⟨rfl, ⟨2, 1, rfl, .inr rfl⟩, ?_, ?_⟩, ?_, ?_, ?_⟩
  · exact fun r k r' k' _ h2 _ h4 e => temp_inj (n := 2) (P := 2) (q := 0) h2 h4 e
  · have : ∀ r < 2, ∀ k < 2, exMem (exOut.cell [r, k]) = some 0 := by decide
    exact fun r k h1 h2 => this r h1 k h2
  · exact fun r k r' k' _ h2 _ h4 e => temp_inj (n := 3) (P := 2) (q := 4) h2 h4 e
  · have : ∀ r < 3, ∀ k < 2, exMem (exIn.cell [r, k]) = some ([1, 2, 10, 20, 100, 200].getD (2 * r + k) 0) := by decide
    exact fun r k h1 h2 => this r h1 k h2
  · have : ∀ r < 2, ∀ k < 2, ∀ r' < 3, ∀ k' < 2, exOut.cell [r, k] ≠ exIn.cell [r', k'] := by decide
    exact fun r k r' k' h1 h2 h3 h4 => this r h1 k h2 r' h3 k' h4
  · intro i _ _ c h1 _
    exact List.getElem?_eq_none (by simpa using by omega)
  · intro i j hi hj h1 h2 _ _ _ _ _
    have hi' : i < 3 := hi
    have hj' : j < 3 := hj
    have a1 : i ≠ 0 ∧ i ≠ 1 := h1
    have a2 : j ≠ 0 ∧ j ≠ 1 := h2
    omega

/-- The first `k` cells after a run, and the number of tensor objects left over. -/
def seen (k : Nat) (r : Res (Buf Int × List View)) : Option (List (Option Int) × Nat) := match r with
  | .ok (m, l) => some ((List.range k).map m, l.length)
  | _ => none

example : seen 22 (run gatherRows exProg (fun _ => 20) exOut exIn exMem) =
    some (([1, 2, 111, 222, 1, 2, 10, 20, 100, 200].map some) ++ List.replicate 12 none, 2) := by decide

example : seen 22 (inv GMap.makeInv exProg >>= fun p => run gatherRows p (fun _ => 20) ⟨4, [3, 2], [2, 1]⟩ ⟨0, [2, 2], [2, 1]⟩
      fun c => [5, 6, 7, 8, 0, 0, 0, 0, 0, 0][c]?) =
    some (([5, 6, 7, 8, 12, 14, 7, 8, 7, 8].map some) ++ List.replicate 12 none, 2) := by decide

example : run gatherRows exProg (fun _ => 20) ⟨0, [2, 3], [3, 1]⟩ exIn exMem = .throw := by
  exact C192_refuses _ _ _ _ _ _ (n := exN) (w := fun _ => 1) (nc := 2) (l := 2) (by decide) (by decide) (by decide) (by decide) (by decide)

/-- C195: three objects are left over when a program has one variable for both. -/
theorem C195_shared_fails : seen 2 (run (gatherRows (α := Int)) { exProg with outputvar := 0, instrs := [] } (fun i => 20 * i) exIn exIn exMem) =
    some ([some 0, some 0], 3) := by decide

end TProg

end Cnine
