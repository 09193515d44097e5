import Verif.Model.TProgram
import Verif.Props.GatherRows
import Verif.Spec.View
import Verif.Lemmas.Index

/-!
# Tensor programs: auxiliary facts
-/

namespace Cnine

open GatherRows (blockCell Setting Mem toAdd gather_plus)

variable {α M : Type}

theorem loop_snoc {σ : Type} (n : Nat) (s : σ) (body : Nat → σ → Res σ) : loop (n + 1) s body = loop n s body >>= body n := by
  unfold loop
  rw [List.range_succ, Res.forM_append]
  cases Res.forM (List.range n) s (fun s i => body i s) with
  | ok a =>
    rw [Res.ok_bind, Res.ok_bind, Res.forM_cons]
    cases body n a <;> rfl
  | throw => rfl
  | ub => rfl

namespace TProg

/-! ## Values -/

/-- A place: variable, row and column. -/
abbrev Loc := Nat × Nat × Nat

/-- One round of additions, all reading the old values: `σ d` gains `σ s` for every listed pair (d,s). -/
def step [AddCommMonoid α] (ms : List (Loc × Loc)) (σ : Loc → α) : Loc → α :=
  fun a => σ a + (ms.map fun d => if a = d.1 then σ d.2 else 0).sum

/-- Rounds of additions, one after the other. -/
def steps [AddCommMonoid α] (mss : List (List (Loc × Loc))) (σ : Loc → α) : Loc → α := mss.foldl (fun σ ms => step ms σ) σ

/-- Where column `k` of block `t` is, in a matrix with rows of length `P` divided into `cols` blocks. -/
def spot (cols P t k : Nat) : Nat × Nat := (t / cols, t % cols * (P / cols) + k)

/-- The pairs of a gather map. -/
def edges (g : GMap) : List (Int × Int) := match g.forEach with
  | .ok es => es
  | _ => []

/-- The additions one instruction asks for: block `t` of `out` gains block `s` of `in` for every pair (t,s).  Rows of variable `i`
have length `P i`. -/
def moves (P : Nat → Nat) (e : Instr GMap) : List (Loc × Loc) :=
  (edges e.map).flatMap fun ed => (List.range (P e.out.toNat / e.map.outCols)).map fun k =>
    ((e.out.toNat, spot e.map.outCols (P e.out.toNat) ed.1.toNat k), (e.inp.toNat, spot e.map.inCols (P e.inp.toNat) ed.2.toNat k))

/-- An instruction that makes sense for variables of `n i` rows of length `P i`: two different variables, rows that divide into
blocks of one common width, and pairs within range. -/
structure InstrOk (N : Nat) (n P : Nat → Nat) (e : Instr GMap) : Prop where
  out : 0 ≤ e.out ∧ e.out < N
  inp : 0 ≤ e.inp ∧ e.inp < N
  ne : e.out ≠ e.inp
  made : GMap.Made e.map
  oc : 0 < e.map.outCols
  ic : 0 < e.map.inCols
  ocn : e.map.outColsN = 1
  icn : e.map.inColsN = 1
  odvd : P e.out.toNat % e.map.outCols = 0
  idvd : P e.inp.toNat % e.map.inCols = 0
  width : P e.out.toNat / e.map.outCols = P e.inp.toNat / e.map.inCols
  range : ∀ ed ∈ edges e.map, (0 ≤ ed.1 ∧ ed.1 < n e.out.toNat * e.map.outCols) ∧ 0 ≤ ed.2 ∧ ed.2 < n e.inp.toNat * e.map.inCols

theorem spot_lt {cols n P t k : Nat} (hc : 0 < cols) (hd : P % cols = 0) (ht : t < n * cols) (hk : k < P / cols) :
    (spot cols P t k).1 < n ∧ (spot cols P t k).2 < P := by
  refine ⟨Nat.div_lt_of_lt_mul (by rw [Nat.mul_comm]; exact ht), ?_⟩
  obtain ⟨q, rfl⟩ := Nat.dvd_of_mod_eq_zero hd
  rw [Nat.mul_div_cancel_left _ hc] at hk
  show t % cols * (cols * q / cols) + k < cols * q
  rw [Nat.mul_div_cancel_left _ hc]
  have h1 : t % cols < cols := Nat.mod_lt _ hc
  calc t % cols * q + k < t % cols * q + q := by omega
    _ = (t % cols + 1) * q := by rw [Nat.add_mul, Nat.one_mul]
    _ ≤ cols * q := Nat.mul_le_mul_right _ h1

/-! ## The tensors behind the variables -/

/-- Matrices that lie apart, `n i` rows of length `P i`; rows without gaps, unless no instruction divides rows (`b`). -/
structure Layout (b : Prop) (N : Nat) (n P : Nat → Nat) (V : Nat → View) : Prop where
  dims : ∀ i, i < N → (V i).dims = [n i, P i]
  strides : ∀ i, i < N → ∃ s0 s1, (V i).strides = [s0, s1] ∧ (b ∨ s0 = P i * s1)
  inj : ∀ i j r k r' k', i < N → j < N → r < n i → k < P i → r' < n j → k' < P j →
    (V i).cell [r, k] = (V j).cell [r', k'] → (i, r, k) = (j, r', k')

/-- The matrices hold the values `σ`. -/
def Holds (N : Nat) (n P : Nat → Nat) (V : Nat → View) (σ : Loc → α) (m : Buf α) : Prop :=
  ∀ i r k, i < N → r < n i → k < P i → m ((V i).cell [r, k]) = some (σ (i, r, k))

theorem cell2 {v : View} {s0 s1 : Nat} (h : v.strides = [s0, s1]) (r k : Nat) : v.cell [r, k] = v.off + (s0 * r + s1 * k) := by
  unfold View.cell dot
  rw [h]
  simp

theorem blockCell_eq {v : View} {P s0 s1 cols : Nat} (h : v.strides = [s0, s1]) (t k : Nat) :
    blockCell v P s0 s1 cols t k = v.cell [(spot cols P t k).1, (spot cols P t k).2] := by
  rw [cell2 h]
  unfold blockCell spot
  dsimp only
  rw [Nat.mul_comm (t / cols) s0, Nat.mul_comm (_ + k) s1, Nat.add_assoc]

theorem edges_ok {g : GMap} (h : GMap.Made g) : g.forEach = .ok (edges g) := by
  obtain ⟨es, _, _, h1, _⟩ := GMap.C42_inv h
  unfold edges
  rw [h1]

/-- One instruction. -/
theorem gather_step [AddCommMonoid α] {b : Prop} {N : Nat} {n P : Nat → Nat} {V : Nat → View} {σ : Loc → α} {m : Buf α}
    (hV : Layout b N n P V) {e : Instr GMap} (he : InstrOk N n P e) (hb : b → e.map.outCols = 1 ∧ e.map.inCols = 1)
    (hm : Holds N n P V σ m) :
    ∃ m', gatherRows e.map (V e.out.toNat) (V e.inp.toNat) m = .ok m' ∧ Holds N n P V (step (moves P e) σ) m' ∧
      ∀ c, (∀ i r k, i < N → r < n i → k < P i → c ≠ (V i).cell [r, k]) → m' c = m c := by
  have ho : e.out.toNat < N := by have := he.out; omega
  have hi : e.inp.toNat < N := by have := he.inp; omega
  have hne : e.out.toNat ≠ e.inp.toNat := by have := he.ne; have := he.out; have := he.inp; omega
  obtain ⟨s0, s1, hs, hsb⟩ := hV.strides _ ho
  obtain ⟨t0, t1, ht, htb⟩ := hV.strides _ hi
  have S : Setting (V e.out.toNat) (V e.inp.toNat) (n e.out.toNat) (P e.out.toNat) (n e.inp.toNat) (P e.inp.toNat) s0 s1 t0 t1
      e.map.outCols e.map.outColsN e.map.inCols e.map.inColsN (P e.out.toNat / e.map.outCols) := by
    refine ⟨hV.dims _ ho, hs, hV.dims _ hi, ht, he.oc, he.odvd, he.ic, he.idvd, ?_, ?_, ?_, ?_⟩
    · rcases hsb with h | h
      · exact .inl (hb h).1
      · exact .inr h
    · rcases htb with h | h
      · exact .inl (hb h).2
      · exact .inr h
    · rw [he.ocn, Nat.mul_one]
    · rw [he.icn, Nat.mul_one, he.width]
  have hM : Mem (blockCell (V e.out.toNat) (P e.out.toNat) s0 s1 e.map.outCols)
      (blockCell (V e.inp.toNat) (P e.inp.toNat) t0 t1 e.map.inCols) (n e.out.toNat * e.map.outCols) (n e.inp.toNat * e.map.inCols)
      (P e.out.toNat / e.map.outCols)
      (fun s k => σ (e.inp.toNat, spot e.map.inCols (P e.inp.toNat) s k)) m := by
    refine ⟨fun t c h1 h2 => ?_, fun s c h1 h2 => ?_, fun t s c d h1 h2 h3 h4 => ?_⟩
    · have := spot_lt he.oc he.odvd h1 h2
      rw [blockCell_eq hs, hm _ _ _ ho this.1 this.2]
      rfl
    · have := spot_lt he.ic he.idvd h1 (he.width ▸ h2)
      rw [blockCell_eq ht, hm _ _ _ hi this.1 this.2]
    · have k1 := spot_lt he.oc he.odvd h1 h3
      have k2 := spot_lt he.ic he.idvd h2 (he.width ▸ h4)
      rw [blockCell_eq hs, blockCell_eq ht]
      intro h
      have := hV.inj _ _ _ _ _ _ ho hi k1.1 k1.2 k2.1 k2.2 h
      simp only [Prod.mk.injEq] at this
      exact hne this.1
  have hr : ∀ ed ∈ edges e.map, (0 ≤ ed.1 ∧ ed.1 < ((n e.out.toNat * e.map.outCols : Nat) : Int)) ∧
      0 ≤ ed.2 ∧ ed.2 < ((n e.inp.toNat * e.map.inCols : Nat) : Int) := by
    intro ed h
    have := he.range ed h
    push_cast
    exact this
  refine ⟨_, gather_plus he.made (edges_ok he.made) S hM hr, ?_, ?_⟩
  · intro i r k hiN hrn hkP
    unfold Buf.plus
    rw [hm i r k hiN hrn hkP, Option.map_some]
    congr 1
    unfold step addTo
    congr 2
    unfold toAdd moves
    rw [List.map_flatMap, List.map_flatMap]
    apply List.flatMap_congr
    intro ed hed
    rw [List.map_map, List.map_map]
    apply List.map_congr_left
    intro c hc
    have hc' := List.mem_range.1 hc
    have h2 := he.range ed hed
    have k1 := spot_lt (n := n e.out.toNat) (t := ed.1.toNat) he.oc he.odvd (by have := hr ed hed; omega) hc'
    dsimp only [Function.comp_apply]
    rw [blockCell_eq hs]
    by_cases h : (i, r, k) = (e.out.toNat, spot e.map.outCols (P e.out.toNat) ed.1.toNat c)
    · rw [if_pos h]
      rw [Prod.mk.injEq] at h
      obtain ⟨h3, h4⟩ := h
      rw [if_pos]
      rw [h3, ← h4]
    · rw [if_neg h, if_neg]
      intro h3
      exact h (hV.inj _ _ _ _ _ _ hiN ho hrn hkP k1.1 k1.2 h3)
  · intro c hc
    unfold Buf.plus
    have : addTo (toAdd (blockCell (V e.out.toNat) (P e.out.toNat) s0 s1 e.map.outCols)
        (fun s k => σ (e.inp.toNat, spot e.map.inCols (P e.inp.toNat) s k)) (P e.out.toNat / e.map.outCols) (edges e.map)) c = 0 := by
      unfold addTo
      apply List.sum_eq_zero
      intro x hx
      obtain ⟨p, hp, rfl⟩ := List.mem_map.1 hx
      unfold toAdd at hp
      obtain ⟨ed, hed, hp⟩ := List.mem_flatMap.1 hp
      obtain ⟨k, hk, rfl⟩ := List.mem_map.1 hp
      have k1 := spot_lt (n := n e.out.toNat) (t := ed.1.toNat) he.oc he.odvd (by have := hr ed hed; omega) (List.mem_range.1 hk)
      rw [if_neg]
      dsimp only
      rw [blockCell_eq hs]
      exact hc _ _ _ ho k1.1 k1.2
    rw [this]
    simp

/-! ## Making and deleting the tensors -/

/-- The tensor of variable `i`. -/
def place (p : TProg M) (q : Nat → Nat) (n P : Nat → Nat) (output input : View) (i : Nat) : View :=
  if i = p.inputvar then input else if i = p.outputvar then output else ⟨q i, [n i, P i], [P i, 1]⟩

/-- The variable is a temporary. -/
def Temp (p : TProg M) (i : Nat) : Prop := i ≠ p.inputvar ∧ i ≠ p.outputvar

instance (p : TProg M) (i : Nat) : Decidable (Temp p i) := inferInstanceAs (Decidable (_ ∧ _))

/-- The cell lies in the block of a temporary before `k`. -/
def InTemp (p : TProg M) (q n P : Nat → Nat) (k c : Nat) : Prop := ∃ i, i < k ∧ Temp p i ∧ q i ≤ c ∧ c < q i + n i * P i

theorem scaleLast2 (a b nc : Nat) : scaleLast [a, b] nc = .ok [a, b * nc] := rfl

theorem asize2 (a b : Nat) : asize [a, b] = a * b := by rw [asize_eq]; simp

theorem rm2 (a b : Nat) : rmStrides [a, b] = [b, 1] := by simp [rmStrides_cons]

theorem slots_ok [Zero α] {p : TProg M} {q n w : Nat → Nat} {nc : Nat} {output input : View} (m : Buf α)
    (hs : ∀ i, i < p.vars.length → p.vars[i]? = some [n i, w i]) (hne : p.inputvar ≠ p.outputvar) (hi : p.inputvar < p.vars.length)
    (ho : p.outputvar < p.vars.length) (k : Nat) (hk : k ≤ p.vars.length) (ptr : List (Option Nat)) (hp : ptr.length = p.vars.length) :
    ∃ m', loop k (⟨[input, output], ptr⟩, m) (fun i s => slot p q nc output input i s) =
        .ok (⟨input :: output :: (List.range k).map (place p q n (fun i => w i * nc) output input),
          (List.range k).map (fun i => some (i + 2)) ++ ptr.drop k⟩, m') ∧
      (∀ c, InTemp p q n (fun i => w i * nc) k c → m' c = some 0) ∧ ∀ c, ¬ InTemp p q n (fun i => w i * nc) k c → m' c = m c := by
  induction k with
  | zero => exact ⟨m, by simp [loop, Res.forM_nil], fun c ⟨i, h, _⟩ => absurd h (by omega), fun c _ => rfl⟩
  | succ k ih =>
    obtain ⟨m', e, h1, h2⟩ := ih (by omega)
    have hset : ∀ v : View, Heap.new ⟨input :: output :: (List.range k).map (place p q n (fun i => w i * nc) output input),
        (List.range k).map (fun i => some (i + 2)) ++ ptr.drop k⟩ k v =
        ⟨input :: output :: ((List.range k).map (place p q n (fun i => w i * nc) output input) ++ [v]),
          (List.range (k + 1)).map (fun i => some (i + 2)) ++ ptr.drop (k + 1)⟩ := by
      intro v
      unfold Heap.new
      dsimp only
      rw [List.set_append_right _ _ (by simp), List.range_succ, List.map_append]
      have : (ptr.drop k).set 0 (some (k + 2)) = some (k + 2) :: ptr.drop (k + 1) := by
        rw [← List.getElem_cons_drop (show k < ptr.length by omega)]
        rfl
      simp [this]
    rw [loop_snoc, e, Res.ok_bind]
    unfold slot
    dsimp only
    by_cases hki : k = p.inputvar
    · have hko : k ≠ p.outputvar := by omega
      rw [if_pos hki, if_neg hko, if_neg (by omega), hset]
      refine ⟨m', ?_, ?_, ?_⟩
      · rw [List.range_succ, List.map_append, List.map_append, List.map_cons, List.map_nil, List.map_cons, List.map_nil]
        have : place p q n (fun i => w i * nc) output input k = input := by unfold place; rw [if_pos hki]
        rw [this]
      · rintro c ⟨i, a, b, d⟩
        exact h1 c ⟨i, by have := b.1; omega, b, d⟩
      · intro c hc
        refine h2 c fun ⟨i, a, b, d⟩ => hc ⟨i, by omega, b, d⟩
    · by_cases hko : k = p.outputvar
      · rw [if_neg hki, if_pos hko, if_neg (by omega), hset]
        refine ⟨m', ?_, ?_, ?_⟩
        · have : place p q n (fun i => w i * nc) output input k = output := by unfold place; rw [if_neg hki, if_pos hko]
          rw [List.range_succ, List.map_append, List.map_append, List.map_cons, List.map_nil, List.map_cons, List.map_nil, this]
        · rintro c ⟨i, a, b, d⟩
          exact h1 c ⟨i, by have := b.2; omega, b, d⟩
        · intro c hc
          refine h2 c fun ⟨i, a, b, d⟩ => hc ⟨i, by omega, b, d⟩
      · rw [if_neg hki, if_neg hko, if_pos ⟨hki, hko⟩, Res.get, hs k (by omega)]
        rw [Res.ok_bind, scaleLast2, Res.ok_bind, hset, asize2, rm2]
        refine ⟨allocZero m' (q k) (n k * (w k * nc)), ?_, ?_, ?_⟩
        · have : place p q n (fun i => w i * nc) output input k = ⟨q k, [n k, w k * nc], [w k * nc, 1]⟩ := by
            unfold place; rw [if_neg hki, if_neg hko]
          rw [List.range_succ, List.map_append, List.map_append, List.map_cons, List.map_nil, List.map_cons, List.map_nil, this]
        · rintro c ⟨i, a, b, d⟩
          unfold allocZero
          by_cases hc : q k ≤ c ∧ c < q k + n k * (w k * nc)
          · rw [if_pos hc]
          · rw [if_neg hc]
            refine h1 c ⟨i, ?_, b, d⟩
            have : i ≠ k := fun h => hc (h ▸ d)
            omega
        · intro c hc
          unfold allocZero
          rw [if_neg fun h => hc ⟨k, by omega, ⟨hki, hko⟩, h⟩]
          exact h2 c fun ⟨i, a, b, d⟩ => hc ⟨i, by omega, b, d⟩

theorem cleanup_ok {p : TProg M} {q n w : Nat → Nat} {nc : Nat} (m : Buf α)
    (hs : ∀ i, i < p.vars.length → p.vars[i]? = some [n i, w i]) (k : Nat) (hk : k ≤ p.vars.length) :
    ∃ m', loop k m (fun i m => cleanup p q nc i m) = .ok m' ∧
      (∀ c, InTemp p q n (fun i => w i * nc) k c → m' c = none) ∧ ∀ c, ¬ InTemp p q n (fun i => w i * nc) k c → m' c = m c := by
  induction k with
  | zero => exact ⟨m, by simp [loop, Res.forM_nil], fun c ⟨i, h, _⟩ => absurd h (by omega), fun c _ => rfl⟩
  | succ k ih =>
    obtain ⟨m', e, h1, h2⟩ := ih (by omega)
    rw [loop_snoc, e, Res.ok_bind]
    unfold cleanup
    by_cases hT : k ≠ p.inputvar ∧ k ≠ p.outputvar
    · rw [if_pos hT, Res.get, hs k (by omega)]
      dsimp only
      rw [Res.ok_bind, scaleLast2, Res.ok_bind, asize2]
      refine ⟨_, rfl, ?_, ?_⟩
      · rintro c ⟨i, a, b, d⟩
        unfold freeBlock
        by_cases hc : q k ≤ c ∧ c < q k + n k * (w k * nc)
        · rw [if_pos hc]
        · rw [if_neg hc]
          refine h1 c ⟨i, ?_, b, d⟩
          have : i ≠ k := fun h => hc (h ▸ d)
          omega
      · intro c hc
        unfold freeBlock
        rw [if_neg fun h => hc ⟨k, by omega, hT, h⟩]
        exact h2 c fun ⟨i, a, b, d⟩ => hc ⟨i, by omega, b, d⟩
    · rw [if_neg hT]
      refine ⟨m', rfl, ?_, ?_⟩
      · rintro c ⟨i, a, b, d⟩
        refine h1 c ⟨i, ?_, b, d⟩
        have : i ≠ k := fun h => hT (h ▸ b)
        omega
      · intro c hc
        exact h2 c fun ⟨i, a, b, d⟩ => hc ⟨i, by omega, b, d⟩

theorem leaked_eq (a b : View) (l : List View) (N : Nat) (hl : l.length = N) :
    Heap.leaked ⟨a :: b :: l, (List.range N).map fun i => some (i + 2)⟩ = [a, b] := by
  unfold Heap.leaked
  dsimp only
  have : ((List.range (a :: b :: l).length).filter fun k => !((List.range N).map fun i => some (i + 2)).contains (some k)) = [0, 1] := by
    have h1 : List.range (a :: b :: l).length = [0, 1] ++ (List.range N).map (· + 2) := by
      rw [List.length_cons, List.length_cons, hl, List.range_succ_eq_map, List.range_succ_eq_map]
      simp
    rw [h1, List.filter_append]
    have h2 : ((List.range N).map (· + 2)).filter (fun k => !((List.range N).map fun i => some (i + 2)).contains (some k)) = [] := by
      rw [List.filter_eq_nil_iff]
      intro x hx
      obtain ⟨i, hi, rfl⟩ := List.mem_map.1 hx
      simp only [Bool.not_eq_true', Bool.not_eq_false, List.contains_iff_mem, List.mem_map]
      exact ⟨i, hi, rfl⟩
    rw [h2]
    simp [List.contains_iff_mem]
  rw [this]
  rfl

theorem at_ok {V : Nat → View} {a b : View} {N : Nat} {i : Int} (h : 0 ≤ i ∧ i < N) :
    Heap.at ⟨a :: b :: (List.range N).map V, (List.range N).map fun i => some (i + 2)⟩ i = .ok (V i.toNat) := by
  have hi : i.toNat < N := by omega
  unfold Heap.at
  dsimp only
  rw [List.getElem?_map, List.getElem?_range hi, Option.map_some]
  dsimp only
  rw [Res.get]
  simp [hi]

theorem execs_ok [AddCommMonoid α] {b : Prop} {N : Nat} {n P : Nat → Nat} {V : Nat → View} {u v : View}
    (hV : Layout b N n P V) : ∀ (es : List (Instr GMap)) (σ : Loc → α) (m : Buf α), (∀ e ∈ es, InstrOk N n P e) →
    (∀ e ∈ es, b → e.map.outCols = 1 ∧ e.map.inCols = 1) → Holds N n P V σ m →
    ∃ m', Res.forM es m (fun m e => exec gatherRows N ⟨u :: v :: (List.range N).map V, (List.range N).map fun i => some (i + 2)⟩ e m) =
        .ok m' ∧ Holds N n P V (steps (es.map (moves P)) σ) m' ∧
      ∀ c, (∀ i r k, i < N → r < n i → k < P i → c ≠ (V i).cell [r, k]) → m' c = m c
  | [], σ, m, _, _, hm => ⟨m, by rw [Res.forM_nil], hm, fun _ _ => rfl⟩
  | e :: es, σ, m, he, hb, hm => by
    have h1 := he e (by simp)
    obtain ⟨m1, e1, k1, k2⟩ := gather_step hV h1 (hb e (by simp)) hm
    obtain ⟨m2, e2, k3, k4⟩ := execs_ok (u := u) (v := v) hV es _ m1 (fun e h => he e (by simp [h])) (fun e h => hb e (by simp [h])) k1
    refine ⟨m2, ?_, k3, fun c hc => (k4 c hc).trans (k2 c hc)⟩
    rw [Res.forM_cons]
    have : exec gatherRows N ⟨u :: v :: (List.range N).map V, (List.range N).map fun i => some (i + 2)⟩ e m = .ok m1 := by
      unfold exec
      rw [decide_eq_true h1.out, Res.assrt_true, Res.ok_bind, decide_eq_true h1.inp, Res.assrt_true, Res.ok_bind, at_ok h1.out,
        Res.ok_bind, at_ok h1.inp, Res.ok_bind, e1]
    rw [this]
    exact e2

/-! ## Transposes -/

/-- The sum of products over a list of places. -/
def pair [CommSemiring α] (L : List Loc) (σ τ : Loc → α) : α := (L.map fun a => σ a * τ a).sum

/-- The additions with target and source exchanged. -/
def swapped (ms : List (Loc × Loc)) : List (Loc × Loc) := ms.map Prod.swap

theorem step_perm [AddCommMonoid α] {ms ms' : List (Loc × Loc)} (h : ms.Perm ms') (σ : Loc → α) : step ms σ = step ms' σ := by
  funext a
  unfold step
  rw [(h.map _).sum_eq]

theorem pair_step [CommSemiring α] {L : List Loc} (hL : L.Nodup) (σ τ : Loc → α) : ∀ (ms : List (Loc × Loc)), (∀ d ∈ ms, d.1 ∈ L) →
    pair L (step ms σ) τ = pair L σ τ + (ms.map fun d => σ d.2 * τ d.1).sum := by
  intro ms h
  unfold pair step
  have e1 : (L.map fun a => (σ a + (ms.map fun d => if a = d.1 then σ d.2 else 0).sum) * τ a).sum =
      (L.map fun a => σ a * τ a).sum + (L.map fun a => (ms.map fun d => if a = d.1 then σ d.2 else 0).sum * τ a).sum := by
    rw [← List.sum_map_add]
    congr 1
    apply List.map_congr_left
    intro a _
    rw [add_mul]
  rw [e1]
  congr 1
  induction ms with
  | nil => simp
  | cons d ms ih =>
    rw [List.map_cons, List.sum_cons, ← ih fun d h' => h d (by simp [h'])]
    · have : ∀ a, ((d :: ms).map fun d => if a = d.1 then σ d.2 else 0).sum * τ a =
          (if d.1 = a then σ d.2 * τ a else 0) + (ms.map fun d => if a = d.1 then σ d.2 else 0).sum * τ a := by
        intro a
        rw [List.map_cons, List.sum_cons, add_mul]
        congr 1
        by_cases e : a = d.1
        · rw [if_pos e, if_pos e.symm]
        · rw [if_neg e, if_neg fun h => e h.symm, zero_mul]
      simp only [this]
      rw [List.sum_map_add, GatherRows.sum_pick (fun a => σ d.2 * τ a) d.1 L hL (h d (by simp))]
    · unfold step at *
      rw [← List.sum_map_add]
      congr 1
      apply List.map_congr_left
      intro a _
      rw [add_mul]

theorem pair_comm' [CommSemiring α] (L : List Loc) (σ τ : Loc → α) : pair L σ τ = pair L τ σ := by
  unfold pair
  simp only [mul_comm]

theorem pair_swap [CommSemiring α] {L : List Loc} (hL : L.Nodup) (σ τ : Loc → α) (ms : List (Loc × Loc))
    (h : ∀ d ∈ ms, d.1 ∈ L ∧ d.2 ∈ L) : pair L (step ms σ) τ = pair L σ (step (swapped ms) τ) := by
  rw [pair_step hL σ τ ms fun d h' => (h d h').1, pair_comm' L σ (step _ _), pair_step hL τ σ, pair_comm' L τ]
  · congr 1
    unfold swapped
    rw [List.map_map]
    congr 1
    apply List.map_congr_left
    intro d _
    simp [mul_comm]
  · intro d hd
    obtain ⟨d', hd', rfl⟩ := List.mem_map.1 hd
    exact (h d' hd').2

theorem pair_steps [CommSemiring α] {L : List Loc} (hL : L.Nodup) : ∀ (mss : List (List (Loc × Loc))) (σ τ : Loc → α),
    (∀ ms ∈ mss, ∀ d ∈ ms, d.1 ∈ L ∧ d.2 ∈ L) →
    pair L (steps mss σ) τ = pair L σ (steps (mss.reverse.map swapped) τ)
  | [], σ, τ, _ => rfl
  | ms :: mss, σ, τ, h => by
    show pair L (steps mss (step ms σ)) τ = _
    rw [pair_steps hL mss _ τ fun ms' h' => h ms' (by simp [h']), pair_swap hL _ _ _ (h ms (by simp))]
    congr 1
    unfold steps
    rw [List.reverse_cons, List.map_append, List.foldl_append]
    rfl

end TProg

end Cnine
