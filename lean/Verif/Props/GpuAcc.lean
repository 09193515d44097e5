import Verif.Lemmas.GpuAcc
import Verif.Props.RView2
import Verif.Lemmas.TProgram

/-!
# Weighted sums of rows and rectified units on the GPU
-/

namespace Cnine

variable {α : Type}

namespace GpuC

open Gpu

/-! ## C545: weighted sums of rows -/

/-- Rows of `r` are at least as far apart as they are long (`2·n1` floats).  For every row `i` of the mask the first `n1` floats of row `i` of `r` are increased by the weighted sum of the
rows of `x`, whatever the order of the threads.  Missing: the floats `n1` to `2·n1` of the row, see `C545_accumulate_fails`. -/
theorem C545_accumulate_partial [Semiring α] (r x : CV2) (mask : RMCore α) (m : Buf α) (F X : Nat → Nat → α) (hk : (mask.lists.map Prod.fst).Nodup)
    (hl : ∀ e ∈ mask.lists, 0 ≤ e.1 ∧ e.1 < r.n0 ∧ ∀ q ∈ e.2, 0 ≤ q.1 ∧ q.1 < x.n0) (hr : ∀ i p, i < r.n0 → p < 2 * r.n1 → m (r.arr + i * r.s0 + p) = some (F i p))
    (hx : ∀ i p, i < x.n0 → p < 2 * r.n1 → m (x.arr + i * x.s0 + p) = some (X i p)) (hs : 2 * r.n1 ≤ r.s0)
    (ha : ∀ i p j q, i < r.n0 → p < 2 * r.n1 → j < x.n0 → q < 2 * r.n1 → r.arr + i * r.s0 + p ≠ x.arr + j * x.s0 + q) (c1 : r.arrc = r.arr + 1) (c2 : x.arrc = x.arr + 1)
    (c3 : r.s1 = 2) (c4 : x.s1 = 2) (c5 : x.n1 = r.n1) (c6 : x.n1 ≤ 6144) (c7 : mask.lists.length ≤ 2147483647) :
    ∃ ls, accumulate r x mask = .ok ls ∧ Ends ls m fun m' =>
      (∀ e ∈ mask.lists, ∀ p, p < r.n1 → m' (r.arr + e.1.toNat * r.s0 + p) = some (F e.1.toNat p + (e.2.map fun q => q.2 * X q.1.toNat p).sum)) ∧
      ∀ c, (∀ e ∈ mask.lists, ∀ p, p < r.n1 → c ≠ r.arr + e.1.toNat * r.s0 + p) → m' c = m c := by
  have c6' : roundup32 (x.n1 * 2) / 32 ≤ 384 := by unfold roundup32; omega
  refine ⟨_, by simp only [accumulate, decide_eq_true c1, decide_eq_true c2, decide_eq_true c3, decide_eq_true c4, decide_eq_true c5, decide_eq_true c6', Res.assrt_true, Res.ok_bind]; rfl, ?_⟩
  rw [c5]
  by_cases hv : mask.lists.length = 0
  · have hn : mask.lists = [] := List.eq_nil_of_length_eq_zero hv
    refine Ends.skip (by rw [Launch.valid, decide_eq_false_iff_not]; dsimp only; omega) (Ends.nil ?_)
    simp only [hn, List.not_mem_nil, false_implies, implies_true, and_self]
  · have hvalid : (⟨⟨mask.lists.length, 1, 1⟩, ⟨32, 1, 1⟩, fun b t => accK r.arr x.arr (prepare mask.lists).2 (prepare mask.lists).1 r.s0 x.s0 r.n1 b.x t.x⟩ : Launch α).valid = true := by
      rw [valid_iff]; dsimp only; omega
    let E : Nat → Int × List (Int × α) := fun b => mask.lists.getD b (0, [])
    have hE : ∀ b, b < mask.lists.length → mask.lists[b]? = some (E b) ∧ E b ∈ mask.lists := fun b hb => by
      have : mask.lists[b]? = some mask.lists[b] := List.getElem?_eq_getElem hb
      have e : E b = mask.lists[b] := by simp [E, List.getD_eq_getElem?_getD, this]
      rw [e]
      exact ⟨this, List.getElem_mem hb⟩
    have hinj : ∀ b b', b < mask.lists.length → b' < mask.lists.length → (E b).1.toNat = (E b').1.toNat → b = b' := fun b b' hb hb' e => by
      have e1 : (E b).1 = (E b').1 := by
        have := (hl _ (hE b hb).2).1
        have := (hl _ (hE b' hb').2).1
        omega
      have g1 : (mask.lists.map Prod.fst)[b]? = some (E b).1 := by rw [List.getElem?_map, (hE b hb).1]; rfl
      have g2 : (mask.lists.map Prod.fst)[b']? = some (E b).1 := by rw [List.getElem?_map, (hE b' hb').1, e1]; rfl
      exact (List.getElem?_inj (by rw [List.length_map]; exact hb) hk).1 (g1.trans g2.symm)
    have row : ∀ {a b p q : Nat}, p < r.n1 → q < r.n1 → r.arr + a * r.s0 + p = r.arr + b * r.s0 + q → a = b ∧ p = q := fun {a b p q} hp hq e => by
      have hh : a = b := by
        rcases Nat.lt_trichotomy a b with h | h | h
        · have := Nat.mul_le_mul_right r.s0 (Nat.succ_le_of_lt h)
          rw [Nat.succ_mul] at this
          omega
        · exact h
        · have := Nat.mul_le_mul_right r.s0 (Nat.succ_le_of_lt h)
          rw [Nat.succ_mul] at this
          omega
      subst hh
      omega
    have hid : ∀ q ∈ (⟨⟨mask.lists.length, 1, 1⟩, ⟨32, 1, 1⟩, fun b t => accK r.arr x.arr (prepare mask.lists).2 (prepare mask.lists).1 r.s0 x.s0 r.n1 b.x t.x⟩ : Launch α).ids,
        q.1.x < mask.lists.length ∧ q.1.y = 0 ∧ q.1.z = 0 ∧ q.2.x < 32 ∧ q.2.y = 0 ∧ q.2.z = 0 := by
      rintro ⟨⟨bx, by', bz⟩, ⟨tx, ty, tz⟩⟩ hq
      obtain ⟨⟨a1, a2, a3⟩, a4, a5, a6⟩ := mem_ids'.1 hq
      dsimp only at *
      omega
    refine (Ends.own hvalid (fun q c => ∃ s ∈ (E q.1.x).2, ∃ p, p < r.n1 ∧ c = x.arr + s.1.toNat * x.s0 + p)
      (fun q c => ∃ p, p < r.n1 ∧ p % 32 = q.2.x ∧ c = r.arr + (E q.1.x).1.toNat * r.s0 + p)
      (fun q c => if r.arr + (E q.1.x).1.toNat * r.s0 ≤ c ∧ (c - (r.arr + (E q.1.x).1.toNat * r.s0)) % 32 = q.2.x ∧
        (c - (r.arr + (E q.1.x).1.toNat * r.s0)) / 32 < slots r.n1 q.2.x then
        some (F (E q.1.x).1.toNat (c - (r.arr + (E q.1.x).1.toNat * r.s0)) + ((E q.1.x).2.map fun s => s.2 * X s.1.toNat (c - (r.arr + (E q.1.x).1.toNat * r.s0))).sum) else m c) ?_ ?_ fun q hq => ?_).imp fun m' h => ?_
    · intro q hq
      obtain ⟨b1, b2, b3, b4, b5, b6⟩ := hid q hq
      obtain ⟨e1, e2⟩ := hE _ b1
      obtain ⟨l1, l2, l3⟩ := hl _ e2
      exact accK_within e1 r.arr x.arr r.s0 x.s0 r.n1 q.2.x b4 l1 fun s hs => (l3 s hs).1
    · rintro q hq q' hq' hne c ⟨p, hp, hpt, rfl⟩
      obtain ⟨b1, b2, b3, b4, b5, b6⟩ := hid q hq
      obtain ⟨d1, d2, d3, d4, d5, d6⟩ := hid q' hq'
      obtain ⟨l1, l2, l3⟩ := hl _ (hE _ b1).2
      obtain ⟨l1', l2', l3'⟩ := hl _ (hE _ d1).2
      refine ⟨?_, ?_⟩
      · rintro ⟨p', hp', hpt', e⟩
        obtain ⟨e1, e2⟩ := row hp hp' e
        apply hne
        have f1 := hinj _ _ b1 d1 e1
        obtain ⟨⟨bx, by', bz⟩, ⟨tx, ty, tz⟩⟩ := q
        obtain ⟨⟨bx', by'', bz'⟩, ⟨tx', ty', tz'⟩⟩ := q'
        dsimp only at *
        subst f1 e2
        rw [b2, b3, b5, b6, d2, d3, d5, d6, ← hpt, ← hpt']
      · rintro ⟨s, hs', p', hp', e⟩
        exact ha _ _ _ _ (by omega) (by omega) (by have := (l3' s hs').2; have := (l3' s hs').1; omega) (by omega) e
    · obtain ⟨b1, b2, b3, b4, b5, b6⟩ := hid q hq
      obtain ⟨e1, e2⟩ := hE _ b1
      obtain ⟨l1, l2, l3⟩ := hl _ e2
      refine accK_run e1 r.arr x.arr r.s0 x.s0 r.n1 q.2.x b4 m (F (E q.1.x).1.toNat) X l1 (fun s hs => (l3 s hs).1) (fun p hp => hr _ p (by omega) (by omega)) fun s hs p hp => hx _ p ?_ (by omega)
      have := l3 s hs
      omega
    · refine ⟨fun e he p hp => ?_, fun c hc => ?_⟩
      · obtain ⟨b, hb, rfl⟩ := List.getElem_of_mem he
        have eb : E b = mask.lists[b] := by
          have := (hE b hb).1
          rw [List.getElem?_eq_getElem hb, Option.some.injEq] at this
          exact this.symm
        rw [← eb]
        have := h.1 (⟨b, 0, 0⟩, ⟨p % 32, 0, 0⟩) (mem_ids'.2 (by dsimp only; omega)) (r.arr + (E b).1.toNat * r.s0 + p) ⟨p, hp, rfl, rfl⟩
        rw [this]
        dsimp only
        rw [if_pos (by
          rw [Nat.add_sub_cancel_left]
          exact ⟨by omega, rfl, lt_slot hp rfl⟩), Nat.add_sub_cancel_left]
      · refine h.2 c ?_
        rintro q hq ⟨p, hp, _, e⟩
        exact hc _ (hE _ (hid q hq).1).2 p hp e

/-- One row of two complex entries (cells 0 to 3), to which the row `1+2i, 3+4i` (cells 4 to 7) is to be added with weight 1: the second entry stays 0. -/
theorem C545_accumulate_fails : ∃ ls, accumulate (⟨0, 1, 1, 2, 4, 2⟩ : CV2) ⟨4, 5, 1, 2, 4, 2⟩ (RMCore.empty.push 0 0 (1 : Int)) = .ok ls ∧
    Ends ls (Buf.ofList ([0, 0, 0, 0, 1, 2, 3, 4] : List Int)) fun m' => m' 0 = some 1 ∧ m' 1 = some 2 ∧ m' 2 = some 0 ∧ m' 3 = some 0 := by
  obtain ⟨ls, e, h⟩ := C545_accumulate_partial (⟨0, 1, 1, 2, 4, 2⟩ : CV2) ⟨4, 5, 1, 2, 4, 2⟩ (RMCore.empty.push 0 0 (1 : Int)) (Buf.ofList ([0, 0, 0, 0, 1, 2, 3, 4] : List Int))
    (fun _ _ => 0) (fun _ p => p + 1) (by decide) (by decide) (by
      intro i p hi hp
      obtain rfl : i = 0 := Nat.lt_one_iff.1 hi
      have hp : p < 4 := hp
      have : p = 0 ∨ p = 1 ∨ p = 2 ∨ p = 3 := by omega
      rcases this with rfl | rfl | rfl | rfl <;> rfl) (by
      intro i p hi hp
      obtain rfl : i = 0 := Nat.lt_one_iff.1 hi
      have hp : p < 4 := hp
      have : p = 0 ∨ p = 1 ∨ p = 2 ∨ p = 3 := by omega
      rcases this with rfl | rfl | rfl | rfl <;> rfl) (by decide) (by
      intro i p j q hi hp hj hq
      dsimp only at *
      omega) rfl rfl rfl rfl rfl (by decide) (by decide)
  refine ⟨ls, e, h.imp fun m' hm => ?_⟩
  have hmem : ((0 : Int), [((0 : Int), (1 : Int))]) ∈ (RMCore.empty.push 0 0 (1 : Int)).lists := List.mem_singleton.2 rfl
  have hout : ∀ c, 2 ≤ c → m' c = (Buf.ofList ([0, 0, 0, 0, 1, 2, 3, 4] : List Int)) c := fun c hc => hm.2 c fun e he p hp => by
    have : e = (0, [(0, 1)]) := List.mem_singleton.1 he
    subst this
    have hp : p < 2 := hp
    change c ≠ 0 + 0 * 4 + p
    omega
  exact ⟨hm.1 _ hmem 0 (by decide), hm.1 _ hmem 1 (by decide), hout 2 (by decide), hout 3 (by decide)⟩

/-! ## C546: rectified units of packs -/

/-- The rectified value. -/
def relu [Mul α] [Zero α] [LT α] [DecidableLT α] (alpha v : α) : α := if 0 < v then v else alpha * v

theorem relu_one [Mul α] [Zero α] [LT α] [DecidableLT α] {m : Buf α} {r x : Nat} {alpha a v : α} (b t : Nat) (hr : m (r + (b * 32 + t)) = some a) (hx : m (x + (b * 32 + t)) = some v) :
    One m (reluK r x alpha b t) (r + (b * 32 + t)) (relu alpha v) (fun p => p = x + (b * 32 + t)) := by
  refine ⟨Within.bind (Within.rd (.inl rfl)) fun v => ?_, ?_⟩
  · split <;> exact Within.wr rfl
  · rw [reluK, Thr.run_bind, Thr.run_rd hx, Res.ok_bind, relu]
    dsimp only
    split <;> exact Thr.run_wr _ hr

theorem reluBack_one [Mul α] [Zero α] [LT α] [DecidableLT α] {m : Buf α} {r g x : Nat} {alpha a v w : α} (b t : Nat) (hr : m (r + (b * 32 + t)) = some a) (hx : m (x + (b * 32 + t)) = some v)
    (hg : m (g + (b * 32 + t)) = some w) :
    One m (reluBackK r g x alpha b t) (r + (b * 32 + t)) (if 0 < v then w else alpha * w) (fun p => p = x + (b * 32 + t) ∨ p = g + (b * 32 + t)) := by
  refine ⟨Within.bind (Within.rd (.inl (.inr rfl))) fun _ => Within.bind (Within.rd (.inl (.inl rfl))) fun v => ?_, ?_⟩
  · split <;> exact Within.wr rfl
  · rw [reluBackK, Thr.run_bind, Thr.run_rd hg, Res.ok_bind, Thr.run_bind, Thr.run_rd hx, Res.ok_bind]
    dsimp only
    split <;> exact Thr.run_wr _ hr

/-- Two launches, one of whole lines of 32 cells and one of the rest, cover `n` cells. -/
theorem tail_cells {m : Buf α} (n : Nat) (hn : n / 32 ≤ 2147483647) (k1 k2 : D3 → D3 → Thr α Unit) (r : Nat) (v : Nat → α) (S : Nat → Nat → Prop)
    (h1 : ∀ b t, b < n / 32 → t < 32 → One m (k1 ⟨b, 0, 0⟩ ⟨t, 0, 0⟩) (r + (b * 32 + t)) (v (b * 32 + t)) (S (b * 32 + t)))
    (h2 : ∀ t, t < n % 32 → One m (k2 ⟨0, 0, 0⟩ ⟨t, 0, 0⟩) (r + (n / 32 * 32 + t)) (v (n / 32 * 32 + t)) (S (n / 32 * 32 + t)))
    (hS : ∀ i j, i < n → j < n → i ≠ j → ¬ S j (r + i)) :
    Ends ((if n ≥ 32 then [(⟨⟨n / 32, 1, 1⟩, ⟨32, 1, 1⟩, k1⟩ : Launch α)] else []) ++ if n % 32 > 0 then [⟨⟨1, 1, 1⟩, ⟨n % 32, 1, 1⟩, k2⟩] else []) m fun m' =>
      Upd m m' (fun i => i < n) (fun i => r + i) v := by
  have C1 : Covers (⟨⟨n / 32, 1, 1⟩, ⟨32, 1, 1⟩, k1⟩ : Launch α) (fun i => i < n / 32 * 32) (fun q => q.1.x * 32 + q.2.x) :=
    covers_box _ _ _ _ _ (fun i => (⟨i / 32, 0, 0⟩, ⟨i % 32, 0, 0⟩)) (fun i hi => by dsimp only; omega) (fun i _ => by dsimp only; omega)
      (fun bx by' bz tx ty tz a1 a2 a3 a4 a5 a6 => by dsimp only at *; omega) (by dsimp only; omega) (by dsimp only; omega) (by dsimp only; omega) (by dsimp only; omega) (by dsimp only; omega)
  have C2 : Covers (⟨⟨1, 1, 1⟩, ⟨n % 32, 1, 1⟩, k2⟩ : Launch α) (fun i => n / 32 * 32 ≤ i ∧ i < n) (fun q => n / 32 * 32 + q.2.x) :=
    covers_box _ _ _ _ _ (fun i => (⟨0, 0, 0⟩, ⟨i - n / 32 * 32, 0, 0⟩)) (fun i hi => by dsimp only; omega) (fun i _ => by dsimp only; omega)
      (fun bx by' bz tx ty tz a1 a2 a3 a4 a5 a6 => by dsimp only at *; omega) (by dsimp only; omega) (by dsimp only; omega) (by dsimp only; omega) (by dsimp only; omega) (by dsimp only; omega)
  have O1 : ∀ q ∈ (⟨⟨n / 32, 1, 1⟩, ⟨32, 1, 1⟩, k1⟩ : Launch α).ids, One m (k1 q.1 q.2) (r + (q.1.x * 32 + q.2.x)) (v (q.1.x * 32 + q.2.x)) (S (q.1.x * 32 + q.2.x)) := by
    rintro ⟨⟨bx, by', bz⟩, ⟨tx, ty, tz⟩⟩ hq
    obtain ⟨⟨a1, a2, a3⟩, a4, a5, a6⟩ := mem_ids'.1 hq
    obtain rfl : by' = 0 := Nat.lt_one_iff.1 a2
    obtain rfl : bz = 0 := Nat.lt_one_iff.1 a3
    obtain rfl : ty = 0 := Nat.lt_one_iff.1 a5
    obtain rfl : tz = 0 := Nat.lt_one_iff.1 a6
    exact h1 bx tx a1 a4
  have O2 : ∀ q ∈ (⟨⟨1, 1, 1⟩, ⟨n % 32, 1, 1⟩, k2⟩ : Launch α).ids, One m (k2 q.1 q.2) (r + (n / 32 * 32 + q.2.x)) (v (n / 32 * 32 + q.2.x)) (S (n / 32 * 32 + q.2.x)) := by
    rintro ⟨⟨bx, by', bz⟩, ⟨tx, ty, tz⟩⟩ hq
    obtain ⟨⟨a1, a2, a3⟩, a4, a5, a6⟩ := mem_ids'.1 hq
    obtain rfl : bx = 0 := Nat.lt_one_iff.1 a1
    obtain rfl : by' = 0 := Nat.lt_one_iff.1 a2
    obtain rfl : bz = 0 := Nat.lt_one_iff.1 a3
    obtain rfl : ty = 0 := Nat.lt_one_iff.1 a5
    obtain rfl : tz = 0 := Nat.lt_one_iff.1 a6
    exact h2 tx a4
  have cinj : ∀ i j : Nat, r + i = r + j → i = j := fun i j e => Nat.add_left_cancel e
  by_cases g1 : n ≥ 32
  · by_cases g2 : n % 32 > 0
    · rw [if_pos g1, if_pos g2]
      exact Ends.cells2 _ _ (fun i => i < n) (fun i => r + i) v S _ _ C1 C2 (fun i hi => by omega) (fun i => by omega) O1 O2 (fun i j _ _ => cinj i j) hS
    · rw [if_pos g1, if_neg g2, List.append_nil]
      refine (Ends.covers (c := fun i => r + i) (v := v) (S := S) C1 O1 (fun i j _ _ => cinj i j) fun i j hi hj => hS i j (by omega) (by omega)).imp fun m' h => h.congr fun i => by omega
  · by_cases g2 : n % 32 > 0
    · rw [if_neg g1, if_pos g2, List.nil_append]
      refine (Ends.covers (c := fun i => r + i) (v := v) (S := S) C2 O2 (fun i j _ _ => cinj i j) fun i j hi hj => hS i j (by omega) (by omega)).imp fun m' h => h.congr fun i => by omega
    · rw [if_neg g1, if_neg g2]
      exact Ends.nil ⟨fun i hi => by omega, fun _ _ => rfl⟩

/-- On the GPU every cell of the pack is replaced by the rectified value, whatever the order of the threads and for every length.  Missing: the addition, see `C546_relu_fails`. -/
theorem C546_relu_partial [Mul α] [Zero α] [LT α] [DecidableLT α] (r rt x xt : Nat) (alpha : α) (m : Buf α) (R X : Nat → α) (hn : rt ≤ 2147483647) (hr : ∀ i, i < rt → m (r + i) = some (R i))
    (hx : ∀ i, i < rt → m (x + i) = some (X i)) (ha : ∀ i j, i < rt → j < rt → i ≠ j → r + i ≠ x + j) :
    if xt = rt then ∃ ls, addRelu r rt x xt alpha = .ok ls ∧ Ends ls m fun m' => Upd m m' (fun i => i < rt) (fun i => r + i) fun i => relu alpha (X i)
    else (addRelu r rt x xt alpha : Res (List (Launch α))) = .throw := by
  split
  case isTrue h =>
    subst h
    refine ⟨_, by rw [addRelu, decide_eq_true rfl, Res.assrt_true, Res.ok_bind, Res.ok_bind], ?_⟩
    refine tail_cells xt (by omega) _ _ r _ (fun i p => p = x + i) (fun b t hb ht => relu_one b t (hr _ (by omega)) (hx _ (by omega))) (fun t ht => ?_) fun i j hi hj hne => ha i j hi hj hne
    have := relu_one (alpha := alpha) (m := m) (r := r + xt / 32 * 32) (x := x + xt / 32 * 32) (a := R (xt / 32 * 32 + t)) (v := X (xt / 32 * 32 + t)) 0 t
      (by rw [Nat.zero_mul, Nat.zero_add, Nat.add_assoc]; exact hr _ (by omega)) (by rw [Nat.zero_mul, Nat.zero_add, Nat.add_assoc]; exact hx _ (by omega))
    rw [Nat.zero_mul, Nat.zero_add, Nat.add_assoc, Nat.add_assoc] at this
    exact this
  case isFalse h => rw [addRelu, decide_eq_false h]; rfl

/-- The backward function on the GPU: every cell is replaced by the gradient, scaled where the input is not positive. -/
theorem C546_relu_back_partial [Mul α] [Zero α] [LT α] [DecidableLT α] (r rt g gt x xt : Nat) (alpha : α) (m : Buf α) (R G X : Nat → α) (hn : rt ≤ 2147483647)
    (hr : ∀ i, i < rt → m (r + i) = some (R i)) (hg : ∀ i, i < rt → m (g + i) = some (G i)) (hx : ∀ i, i < rt → m (x + i) = some (X i))
    (ha : ∀ i j, i < rt → j < rt → i ≠ j → r + i ≠ x + j ∧ r + i ≠ g + j) :
    if xt = rt ∧ gt = rt then ∃ ls, addReluBack r rt g gt x xt alpha = .ok ls ∧ Ends ls m fun m' => Upd m m' (fun i => i < rt) (fun i => r + i) fun i => if 0 < X i then G i else alpha * G i
    else (addReluBack r rt g gt x xt alpha : Res (List (Launch α))) = .throw := by
  split
  case isTrue h =>
    obtain ⟨rfl, rfl⟩ := h
    refine ⟨_, by rw [addReluBack, decide_eq_true rfl, Res.assrt_true, Res.ok_bind, Res.ok_bind, Res.ok_bind], ?_⟩
    refine tail_cells gt (by omega) _ _ r _ (fun i p => p = x + i ∨ p = g + i) (fun b t hb ht => reluBack_one b t (hr _ (by omega)) (hx _ (by omega)) (hg _ (by omega))) (fun t ht => ?_)
      fun i j hi hj hne => not_or.2 (ha i j hi hj hne)
    have := reluBack_one (alpha := alpha) (m := m) (r := r + gt / 32 * 32) (x := x + gt / 32 * 32) (g := g + gt / 32 * 32) (a := R (gt / 32 * 32 + t)) (v := X (gt / 32 * 32 + t))
      (w := G (gt / 32 * 32 + t)) 0 t (by rw [Nat.zero_mul, Nat.zero_add, Nat.add_assoc]; exact hr _ (by omega)) (by rw [Nat.zero_mul, Nat.zero_add, Nat.add_assoc]; exact hx _ (by omega))
      (by rw [Nat.zero_mul, Nat.zero_add, Nat.add_assoc]; exact hg _ (by omega))
    rw [Nat.zero_mul, Nat.zero_add, Nat.add_assoc, Nat.add_assoc, Nat.add_assoc] at this
    exact this
  case isFalse h =>
    by_cases h1 : xt = rt
    · have h2 : ¬ rt = gt := fun e => h ⟨h1, e.symm⟩
      rw [addReluBack, decide_eq_true h1, decide_eq_true h1.symm, decide_eq_false h2]; rfl
    · rw [addReluBack, decide_eq_false h1]; rfl

/-- The same call on the CPU and on the GPU: the cell holds 10, the input is 3; the CPU leaves 13, the GPU 3. -/
theorem C546_relu_fails : (∃ m', addReluCpu 0 1 1 1 (0 : Int) (Buf.ofList [10, 3]) = .ok m' ∧ m' 0 = some 13) ∧
    ∃ ls, addRelu 0 1 1 1 (0 : Int) = .ok ls ∧ Ends ls (Buf.ofList [10, 3]) fun m' => m' 0 = some 3 := by
  refine ⟨⟨_, rfl, rfl⟩, ?_⟩
  have h := C546_relu_partial 0 1 1 1 (0 : Int) (Buf.ofList [10, 3]) (fun _ => 10) (fun _ => 3) (by decide)
    (fun i hi => by obtain rfl : i = 0 := Nat.lt_one_iff.1 hi; rfl) (fun i hi => by obtain rfl : i = 0 := Nat.lt_one_iff.1 hi; rfl) (fun i j hi hj => by omega)
  rw [if_pos rfl] at h
  obtain ⟨ls, e, h⟩ := h
  exact ⟨ls, e, h.imp fun m' hm => hm.1 0 (by decide)⟩

/-- The same for the backward function: the cell holds 10, the gradient is 5, the input 3; the CPU leaves 15, the GPU 5. -/
theorem C546_relu_back_fails : (∃ m', addReluBackCpu 0 1 1 2 1 (0 : Int) (Buf.ofList [10, 5, 3]) = .ok m' ∧ m' 0 = some 15) ∧
    ∃ ls, addReluBack 0 1 1 1 2 1 (0 : Int) = .ok ls ∧ Ends ls (Buf.ofList [10, 5, 3]) fun m' => m' 0 = some 5 := by
  refine ⟨⟨_, rfl, rfl⟩, ?_⟩
  have h := C546_relu_back_partial 0 1 1 1 2 1 (0 : Int) (Buf.ofList [10, 5, 3]) (fun _ => 10) (fun _ => 5) (fun _ => 3) (by decide)
    (fun i hi => by obtain rfl : i = 0 := Nat.lt_one_iff.1 hi; rfl) (fun i hi => by obtain rfl : i = 0 := Nat.lt_one_iff.1 hi; rfl)
    (fun i hi => by obtain rfl : i = 0 := Nat.lt_one_iff.1 hi; rfl) (fun i j hi hj => by omega)
  rw [if_pos ⟨rfl, rfl⟩] at h
  obtain ⟨ls, e, h⟩ := h
  exact ⟨ls, e, h.imp fun m' hm => hm.1 0 (by decide)⟩

/-- On the CPU the rectified values are added. -/
theorem C546_relu_cpu [Add α] [Mul α] [Zero α] [LT α] [DecidableLT α] (r rt x xt : Nat) (alpha : α) (m : Buf α) (R X : Nat → α) (hr : ∀ i, i < rt → m (r + i) = some (R i))
    (hx : ∀ i, i < rt → m (x + i) = some (X i)) (ha : ∀ i j, i < rt → j < rt → r + i ≠ x + j) :
    if xt = rt then ∃ m', addReluCpu r rt x xt alpha m = .ok m' ∧ Upd m m' (fun i => i < rt) (fun i => r + i) fun i => R i + relu alpha (X i)
    else addReluCpu r rt x xt alpha m = .throw := by
  split
  case isTrue h =>
    subst h
    rw [addReluCpu, decide_eq_true rfl, Res.assrt_true, Res.ok_bind]
    have key : ∀ n, n ≤ xt → Cnine.loop n m (fun i m => do
        let v ← m.read (x + i)
        if 0 < v then incCell m (r + i) v else incCell m (r + i) (alpha * v)) =
        .ok fun c => if r ≤ c ∧ c < r + n then some (R (c - r) + relu alpha (X (c - r))) else m c := by
      intro n
      induction n with
      | zero =>
        intro _
        refine congrArg Res.ok ?_
        funext c
        rw [if_neg (by omega)]
      | succ n ih =>
        intro hn
        rw [loop_snoc, ih (by omega), Res.ok_bind]
        have e1 : (fun c => if r ≤ c ∧ c < r + n then some (R (c - r) + relu alpha (X (c - r))) else m c) (x + n) = some (X n) := by
          dsimp only
          rw [if_neg ?_]
          · exact hx n (by omega)
          · intro h
            exact ha (x + n - r) n (by omega) (by omega) (by omega)
        have e2 : (fun c => if r ≤ c ∧ c < r + n then some (R (c - r) + relu alpha (X (c - r))) else m c) (r + n) = some (R n) := by
          dsimp only
          rw [if_neg (by omega)]
          exact hr n (by omega)
        rw [read_ok e1, Res.ok_bind]
        have e3 : ∀ v, incCell (fun c => if r ≤ c ∧ c < r + n then some (R (c - r) + relu alpha (X (c - r))) else m c) (r + n) v =
            .ok fun c => if c = r + n then some (R n + v) else if r ≤ c ∧ c < r + n then some (R (c - r) + relu alpha (X (c - r))) else m c := fun v => by
          rw [incCell_ok e2, write_ok e2]
        have e4 : (if 0 < X n then incCell (fun c => if r ≤ c ∧ c < r + n then some (R (c - r) + relu alpha (X (c - r))) else m c) (r + n) (X n)
            else incCell (fun c => if r ≤ c ∧ c < r + n then some (R (c - r) + relu alpha (X (c - r))) else m c) (r + n) (alpha * X n)) =
            .ok fun c => if c = r + n then some (R n + relu alpha (X n)) else if r ≤ c ∧ c < r + n then some (R (c - r) + relu alpha (X (c - r))) else m c := by
          rw [relu]
          split <;> exact e3 _
        rw [e4]
        refine congrArg Res.ok ?_
        funext c
        by_cases hc : c = r + n
        · subst hc
          rw [if_pos rfl, if_pos (by omega), Nat.add_sub_cancel_left]
        · rw [if_neg hc]
          by_cases hc' : r ≤ c ∧ c < r + n
          · rw [if_pos hc', if_pos (by omega)]
          · rw [if_neg hc', if_neg (by omega)]
    refine ⟨_, key xt (Nat.le_refl _), fun i hi => ?_, fun p hp => ?_⟩
    · dsimp only
      rw [if_pos (by omega), Nat.add_sub_cancel_left]
    · dsimp only
      rw [if_neg]
      intro h
      exact hp (p - r) (by omega) (show p = r + (p - r) by omega)
  case isFalse h => rw [addReluCpu, decide_eq_false h]; rfl

example : ∃ m', addReluCpu 0 3 3 3 (2 : Int) (Buf.ofList [10, 20, 30, 3, -4, 0]) = .ok m' ∧ (List.range 3).map m' = [13, 12, 30].map some := ⟨_, rfl, by decide⟩

/-- On the CPU the gradient is added, scaled where the input is not positive. -/
theorem C546_relu_back_cpu [Add α] [Mul α] [Zero α] [LT α] [DecidableLT α] (r rt g x xt : Nat) (alpha : α) (m : Buf α) (R G X : Nat → α) (hr : ∀ i, i < rt → m (r + i) = some (R i))
    (hg : ∀ i, i < rt → m (g + i) = some (G i)) (hx : ∀ i, i < rt → m (x + i) = some (X i)) (ha : ∀ i j, i < rt → j < rt → r + i ≠ x + j ∧ r + i ≠ g + j) :
    if xt = rt then ∃ m', addReluBackCpu r rt g x xt alpha m = .ok m' ∧ Upd m m' (fun i => i < rt) (fun i => r + i) fun i => R i + if 0 < X i then G i else G i * alpha
    else addReluBackCpu r rt g x xt alpha m = .throw := by
  split
  case isTrue h =>
    subst h
    rw [addReluBackCpu, decide_eq_true rfl, Res.assrt_true, Res.ok_bind]
    have key : ∀ n, n ≤ xt → Cnine.loop n m (fun i m => do
        let v ← m.read (x + i)
        let w ← m.read (g + i)
        if 0 < v then incCell m (r + i) w else incCell m (r + i) (w * alpha)) =
        .ok fun c => if r ≤ c ∧ c < r + n then some (R (c - r) + (if 0 < X (c - r) then G (c - r) else G (c - r) * alpha)) else m c := by
      intro n
      induction n with
      | zero =>
        intro _
        refine congrArg Res.ok ?_
        funext c
        rw [if_neg (by omega)]
      | succ n ih =>
        intro hn
        rw [loop_snoc, ih (by omega), Res.ok_bind]
        have e1 : (fun c => if r ≤ c ∧ c < r + n then some (R (c - r) + (if 0 < X (c - r) then G (c - r) else G (c - r) * alpha)) else m c) (x + n) = some (X n) := by
          dsimp only
          rw [if_neg ?_]
          · exact hx n (by omega)
          · intro h
            exact (ha (x + n - r) n (by omega) (by omega)).1 (by omega)
        have e2 : (fun c => if r ≤ c ∧ c < r + n then some (R (c - r) + (if 0 < X (c - r) then G (c - r) else G (c - r) * alpha)) else m c) (r + n) = some (R n) := by
          dsimp only
          rw [if_neg (by omega)]
          exact hr n (by omega)
        have e5 : (fun c => if r ≤ c ∧ c < r + n then some (R (c - r) + (if 0 < X (c - r) then G (c - r) else G (c - r) * alpha)) else m c) (g + n) = some (G n) := by
          dsimp only
          rw [if_neg ?_]
          · exact hg n (by omega)
          · intro h
            exact (ha (g + n - r) n (by omega) (by omega)).2 (by omega)
        rw [read_ok e1, Res.ok_bind, read_ok e5, Res.ok_bind]
        have e3 : ∀ v, incCell (fun c => if r ≤ c ∧ c < r + n then some (R (c - r) + (if 0 < X (c - r) then G (c - r) else G (c - r) * alpha)) else m c) (r + n) v =
            .ok fun c => if c = r + n then some (R n + v) else if r ≤ c ∧ c < r + n then some (R (c - r) + (if 0 < X (c - r) then G (c - r) else G (c - r) * alpha)) else m c := fun v => by
          rw [incCell_ok e2, write_ok e2]
        have e4 : (if 0 < X n then incCell (fun c => if r ≤ c ∧ c < r + n then some (R (c - r) + (if 0 < X (c - r) then G (c - r) else G (c - r) * alpha)) else m c) (r + n) (G n)
            else incCell (fun c => if r ≤ c ∧ c < r + n then some (R (c - r) + (if 0 < X (c - r) then G (c - r) else G (c - r) * alpha)) else m c) (r + n) (G n * alpha)) =
            .ok fun c => if c = r + n then some (R n + if 0 < X n then G n else G n * alpha) else if r ≤ c ∧ c < r + n then some (R (c - r) + (if 0 < X (c - r) then G (c - r) else G (c - r) * alpha)) else m c := by
          by_cases h0 : 0 < X n
          · rw [if_pos h0, if_pos h0]; exact e3 _
          · rw [if_neg h0, if_neg h0]; exact e3 _
        rw [e4]
        refine congrArg Res.ok ?_
        funext c
        by_cases hc : c = r + n
        · subst hc
          rw [if_pos rfl, if_pos (show r ≤ r + n ∧ r + n < r + (n + 1) by omega), Nat.add_sub_cancel_left]
        · rw [if_neg hc]
          by_cases hc' : r ≤ c ∧ c < r + n
          · rw [if_pos hc', if_pos (show r ≤ c ∧ c < r + (n + 1) by omega)]
          · rw [if_neg hc', if_neg (by omega)]
    refine ⟨_, key xt (Nat.le_refl _), fun i hi => ?_, fun p hp => ?_⟩
    · dsimp only
      rw [if_pos (by omega), Nat.add_sub_cancel_left]
    · dsimp only
      rw [if_neg]
      intro h
      exact hp (p - r) (by omega) (show p = r + (p - r) by omega)
  case isFalse h => rw [addReluBackCpu, decide_eq_false h]; rfl

example : ∃ m', addReluBackCpu 0 3 3 6 3 (2 : Int) (Buf.ofList [10, 20, 30, 5, 6, 7, 3, -4, 0]) = .ok m' ∧ (List.range 3).map m' = [15, 32, 44].map some := ⟨_, rfl, by decide⟩

/-- A pack of 70 floats at 0 and another at 100. -/
example : ∀ i j : Nat, i < 70 → j < 70 → i ≠ j → 0 + i ≠ 100 + j := by omega

end GpuC

end Cnine
