import Verif.Spec.CellMaps
import Verif.Lemmas.RView
import Verif.Lemmas.Gtensor
import Verif.Lemmas.GpuR
import Mathlib.Tactic.Ring
import Mathlib.Tactic.Linarith

/-!
# Maps over the cells of arrays of tensors
-/

namespace Cnine

open CMap

variable {V : Type}

namespace CMap

theorem plusCop_cop [AddCommMonoid V] : Cop (plusCop (V := V)) (· + ·) := by
  intro m t x y a b c flag hx hy ht h1 h2
  cases flag
  · have e1 : copyCell m t x = .ok fun p => if p = t then some a else m p := by
      rw [copyCell, read_ok hx, Res.ok_bind, write_ok ht]
    have e2 : (fun p => if p = t then some a else m p) y = some b := by simp only [if_neg h2.symm]; exact hy
    have e3 : (fun p => if p = t then some a else m p) t = some a := by simp
    simp only [plusCop, if_true, e1, Res.ok_bind]
    rw [updCell_ok e3 e2, write_ok e3]
    congr 1; funext p; by_cases hp : p = t <;> simp [hp]
  · have e1 : updCell (· + ·) m t x = .ok fun p => if p = t then some (c + a) else m p := by
      rw [updCell_ok ht hx, write_ok ht]
    have e2 : (fun p => if p = t then some (c + a) else m p) y = some b := by simp only [if_neg h2.symm]; exact hy
    have e3 : (fun p => if p = t then some (c + a) else m p) t = some (c + a) := by simp
    simp only [plusCop, Bool.true_eq_false, if_false, e1, Res.ok_bind]
    rw [updCell_ok e3 e2, write_ok e3]
    congr 1; funext p; by_cases hp : p = t <;> simp [hp, add_assoc]

theorem addPlusCop_acc [AddCommMonoid V] : Acc (addPlusCop (V := V)) (· + ·) := by
  intro m t x y a b c hx hy ht h1 h2
  have := plusCop_cop m t x y a b c true hx hy ht h1 h2
  simpa [plusCop, addPlusCop] using this

/-- A loop that adds to one cell. -/
theorem acc_loop [AddCommMonoid V] (n : Nat) (m : Buf V) (t : Nat) (c : V) (g : Nat → V) (body : Nat → Buf V → Res (Buf V)) (hc : m t = some c)
    (h : ∀ j, j < n → ∀ m' c', (∀ p, p ≠ t → m' p = m p) → m' t = some c' → body j m' = .ok fun p => if p = t then some (c' + g j) else m' p) :
    loop n m body = .ok fun p => if p = t then some (c + sumTo n g) else m p := by
  induction n with
  | zero =>
    have : (fun p => if p = t then some (c + sumTo 0 g) else m p) = m := by
      funext p; by_cases hp : p = t <;> simp [hp, sumTo, hc]
    rw [this]; rfl
  | succ n ih =>
    have e := ih fun j hj => h j (by omega)
    unfold loop at e ⊢
    rw [List.range_succ, Res.forM_append, e, Res.ok_bind, Res.forM_cons, h n (by omega) _ (c + sumTo n g) (fun p hp => by simp [hp]) (by simp), Res.ok_bind, Res.forM_nil]
    congr 1; funext p
    by_cases hp : p = t <;> simp [hp, sumTo, List.range_succ, add_assoc]

theorem sumTo_succ' [AddCommMonoid V] (n : Nat) (g : Nat → V) : sumTo (n + 1) g = g 0 + sumTo n fun j => g (1 + j) := by
  unfold sumTo
  rw [List.range_succ_eq_map, List.map_cons, List.sum_cons, List.map_map]
  congr 2
  exact List.map_congr_left fun j _ => by simp [Nat.add_comm]

theorem Apart.sub {r x : Arr} (h : Apart r x) {i j : Nat} (hi : i < r.aasize) (hj : j < x.aasize) : r.cell i ≠ x.cell j := h i j hi hj

theorem cell_inj {r : Arr} {i j : Nat} (h : r.cell i = r.cell j) : i = j := by unfold Arr.cell at h; omega

/-- One operation per cell. -/
theorem each_core [Add V] (op : Op3 V) (F : V → V → V) (hop : Acc op F) (n : Nat) (r x y : Arr) (ix iy : Nat → Nat) (m : Buf V) (R X Y : Nat → V) (hn : n = r.aasize)
    (hr : Holds m r R) (hx : Holds m x X) (hy : Holds m y Y) (ax : Apart r x) (ay : Apart r y) (bx : ∀ i, i < n → ix i < x.aasize) (by' : ∀ i, i < n → iy i < y.aasize) :
    ∃ m', loop n m (fun i m => op m (r.cell i) (x.cell (ix i)) (y.cell (iy i))) = .ok m' ∧ Becomes m m' r fun i => R i + F (X (ix i)) (Y (iy i)) := by
  subst hn
  obtain ⟨m', e, h1, h2⟩ := loop_cells r.aasize r.cell (fun i => R i + F (X (ix i)) (Y (iy i))) (fun i m => op m (r.cell i) (x.cell (ix i)) (y.cell (iy i))) m
    (fun i _ j _ e => cell_inj e) (fun i hi => by rw [hr i hi]; rfl) (fun i hi m' hm' => by
      have t1 : m' (r.cell i) = some (R i) := by rw [hm' _ fun j _ hji e => hji (cell_inj e).symm]; exact hr i hi
      have t2 : m' (x.cell (ix i)) = some (X (ix i)) := by rw [hm' _ fun j hj _ e => ax j _ hj (bx i hi) e.symm]; exact hx _ (bx i hi)
      have t3 : m' (y.cell (iy i)) = some (Y (iy i)) := by rw [hm' _ fun j hj _ e => ay j _ hj (by' i hi) e.symm]; exact hy _ (by' i hi)
      rw [hop m' _ _ _ _ _ _ t2 t3 t1 (ax i _ hi (bx i hi)) (ay i _ hi (by' i hi)), write_ok t1])
  exact ⟨m', e, h1, h2⟩

/-- The same for the operations with a flag. -/
theorem each_flag [Add V] (op : Op V) (F : V → V → V) (hop : Cop op F) (flag : Bool) (n : Nat) (r x y : Arr) (ix iy : Nat → Nat) (m : Buf V) (R X Y : Nat → V) (hn : n = r.aasize)
    (hr : Holds m r R) (hx : Holds m x X) (hy : Holds m y Y) (ax : Apart r x) (ay : Apart r y) (bx : ∀ i, i < n → ix i < x.aasize) (by' : ∀ i, i < n → iy i < y.aasize) :
    ∃ m', loop n m (fun i m => op m (r.cell i) (x.cell (ix i)) (y.cell (iy i)) flag) = .ok m' ∧ Becomes m m' r fun i => put flag (R i) (F (X (ix i)) (Y (iy i))) := by
  subst hn
  obtain ⟨m', e, h1, h2⟩ := loop_cells r.aasize r.cell (fun i => put flag (R i) (F (X (ix i)) (Y (iy i)))) (fun i m => op m (r.cell i) (x.cell (ix i)) (y.cell (iy i)) flag) m
    (fun i _ j _ e => cell_inj e) (fun i hi => by rw [hr i hi]; rfl) (fun i hi m' hm' => by
      have t1 : m' (r.cell i) = some (R i) := by rw [hm' _ fun j _ hji e => hji (cell_inj e).symm]; exact hr i hi
      have t2 : m' (x.cell (ix i)) = some (X (ix i)) := by rw [hm' _ fun j hj _ e => ax j _ hj (bx i hi) e.symm]; exact hx _ (bx i hi)
      have t3 : m' (y.cell (iy i)) = some (Y (iy i)) := by rw [hm' _ fun j hj _ e => ay j _ hj (by' i hi) e.symm]; exact hy _ (by' i hi)
      rw [hop m' _ _ _ _ _ _ _ t2 t3 t1 (ax i _ hi (bx i hi)) (ay i _ hi (by' i hi)), write_ok t1]; rfl)
  exact ⟨m', e, h1, h2⟩

/-- A nest of loops whose inner loop adds to one cell. -/
theorem rows_core [AddCommMonoid V] (r : Arr) (n : Nat) (new : Nat → V) (step : Nat → Buf V → Res (Buf V)) (m : Buf V) (R : Nat → V) (hn : n = r.aasize) (hr : Holds m r R)
    (h : ∀ i, i < n → ∀ m', m' (r.cell i) = some (R i) → (∀ p, (∀ j, j < n → p ≠ r.cell j) → m' p = m p) →
      step i m' = .ok fun p => if p = r.cell i then some (new i) else m' p) :
    ∃ m', loop n m step = .ok m' ∧ Becomes m m' r new := by
  subst hn
  obtain ⟨m', e, h1, h2⟩ := loop_cells r.aasize r.cell new step m
    (fun i _ j _ e => cell_inj e) (fun i hi => by rw [hr i hi]; rfl) (fun i hi m' hm' => by
      have t1 : m' (r.cell i) = some (R i) := by rw [hm' _ fun j _ hji e => hji (cell_inj e).symm]; exact hr i hi
      rw [h i hi m' t1 fun p hp => hm' p fun j hj _ => hp j hj, write_ok t1])
  exact ⟨m', e, h1, h2⟩

end CMap

/-! ### C490, C491: one operation per cell -/

/-- `CellwiseBinaryCmap`: the cells of the result are the operation of the cells of the arguments; with the flag it is added. -/
theorem C490_cellwise [Add V] (op : Op V) (F : V → V → V) (hop : Cop op F) (r x y : Arr) (flag : Bool) (m : Buf V) (R X Y : Nat → V) (hr : Holds m r R) (hx : Holds m x X)
    (hy : Holds m y Y) (ax : Apart r x) (ay : Apart r y) (e1 : x.aasize = r.aasize) (e2 : y.aasize = r.aasize) :
    ∃ m', cellwise op r x y flag m = .ok m' ∧ Becomes m m' r fun i => put flag (R i) (F (X i) (Y i)) := by
  rw [cellwise, decide_eq_true e1, Res.assrt_true, Res.ok_bind, decide_eq_true e2, Res.assrt_true, Res.ok_bind]
  exact each_flag op F hop flag _ r x y id id m R X Y rfl hr hx hy ax ay (fun i hi => by rw [e1]; exact hi) (fun i hi => by rw [e2]; exact hi)

/-- `OuterCmap`: all pairs of cells, in row-major order. -/
theorem C490_outer [Add V] (op : Op V) (F : V → V → V) (hop : Cop op F) (r x y : Arr) (flag : Bool) (m : Buf V) (R X Y : Nat → V) (hr : Holds m r R) (hx : Holds m x X)
    (hy : Holds m y Y) (ax : Apart r x) (ay : Apart r y) (e : r.aasize = x.aasize * y.aasize) :
    ∃ m', outer op r x y flag m = .ok m' ∧
      (∀ i j, i < x.aasize → j < y.aasize → m' (r.cell (i * y.aasize + j)) = some (put flag (R (i * y.aasize + j)) (F (X i) (Y j)))) ∧
      ∀ p, (∀ i, i < r.aasize → p ≠ r.cell i) → m' p = m p := by
  have lt : ∀ i j, i < x.aasize → j < y.aasize → i * y.aasize + j < r.aasize := fun i j hi hj => by
    rw [e]
    have : (i + 1) * y.aasize ≤ x.aasize * y.aasize := Nat.mul_le_mul_right _ hi
    rw [Nat.add_mul, Nat.one_mul] at this; omega
  have inj : ∀ i, i < x.aasize → ∀ j, j < y.aasize → ∀ k, k < x.aasize → ∀ l, l < y.aasize → r.cell (i * y.aasize + j) = r.cell (k * y.aasize + l) → i = k ∧ j = l := by
    intro i hi j hj k hk l hl e
    have e := cell_inj e
    have d1 : (j + y.aasize * i) / y.aasize = i := by rw [Nat.add_mul_div_left _ _ (by omega), Nat.div_eq_of_lt hj, Nat.zero_add]
    have d2 : (l + y.aasize * k) / y.aasize = k := by rw [Nat.add_mul_div_left _ _ (by omega), Nat.div_eq_of_lt hl, Nat.zero_add]
    have : i = k := by rw [← d1, ← d2, Nat.mul_comm _ i, Nat.mul_comm _ k, Nat.add_comm, e, Nat.add_comm]
    subst this; exact ⟨rfl, by omega⟩
  rw [outer, decide_eq_true e, Res.assrt_true, Res.ok_bind]
  obtain ⟨m', h0, h1, h2⟩ := loop2_cells x.aasize y.aasize (fun i j => r.cell (i * y.aasize + j)) (fun i j => put flag (R (i * y.aasize + j)) (F (X i) (Y j)))
    (fun i j m => op m (r.cell (i * y.aasize + j)) (x.cell i) (y.cell j) flag) m inj (fun i hi j hj => by rw [hr _ (lt i j hi hj)]; rfl) (fun i hi j hj m' hm' => by
      have t1 : m' (r.cell (i * y.aasize + j)) = some (R (i * y.aasize + j)) := by
        rw [hm' _ fun k hk l hl hne e => hne ?_]
        · exact hr _ (lt i j hi hj)
        · obtain ⟨a, b⟩ := inj i hi j hj k hk l hl e; exact ⟨a.symm, b.symm⟩
      have t2 : m' (x.cell i) = some (X i) := by rw [hm' _ fun k hk l hl _ e => ax _ _ (lt k l hk hl) hi e.symm]; exact hx i hi
      have t3 : m' (y.cell j) = some (Y j) := by rw [hm' _ fun k hk l hl _ e => ay _ _ (lt k l hk hl) hj e.symm]; exact hy j hj
      rw [hop m' _ _ _ _ _ _ _ t2 t3 t1 (ax _ _ (lt i j hi hj) hi) (ay _ _ (lt i j hi hj) hj), write_ok t1]; rfl)
  exact ⟨m', h0, fun i j hi hj => h1 i hi j hj, fun p hp => h2 p fun i hi j hj => hp _ (lt i j hi hj)⟩

/-- The sum of two cells is such an operation. -/
theorem C490_plus [AddCommMonoid V] : Cop (plusCop (V := V)) (fun a b => a + b) := plusCop_cop

/-- Wrong sizes are refused. -/
theorem C490_refuses [Add V] (op : Op V) (r x y : Arr) (flag : Bool) (m : Buf V) (h : x.aasize ≠ r.aasize ∨ y.aasize ≠ r.aasize) : cellwise op r x y flag m = .throw := by
  rw [cellwise]
  by_cases e1 : x.aasize = r.aasize
  · rw [decide_eq_true e1, Res.assrt_true, Res.ok_bind, decide_eq_false (h.resolve_left fun h => h e1)]; rfl
  · rw [decide_eq_false e1]; rfl

example : Holds (fun p => some (p : Int)) ⟨0, [2, 3], 0⟩ (fun i => (i : Int)) ∧ Apart ⟨0, [2, 3], 0⟩ ⟨6, [2], 0⟩ ∧ Apart ⟨0, [2, 3], 0⟩ ⟨8, [3], 0⟩ ∧
    (⟨0, [2, 3], 0⟩ : Arr).aasize = (⟨6, [2], 0⟩ : Arr).aasize * (⟨8, [3], 0⟩ : Arr).aasize := by
  refine ⟨fun i _ => by simp [Arr.cell], fun i j hi hj => ?_, fun i j hi hj => ?_, by decide⟩ <;> simp [Arr.aasize, Arr.cell] at * <;> omega

/-- `CellwiseBiCmap` of include/Cmaps.hpp. -/
theorem C491_cellwise [Add V] (op : Op3 V) (F : V → V → V) (hop : Acc op F) (r x y : Arr) (m : Buf V) (R X Y : Nat → V) (hr : Holds m r R) (hx : Holds m x X) (hy : Holds m y Y)
    (ax : Apart r x) (ay : Apart r y) (e1 : x.aasize = r.aasize) (e2 : y.aasize = r.aasize) : ∃ m', cellwiseBi op r x y m = .ok m' ∧ Becomes m m' r fun i => R i + F (X i) (Y i) := by
  rw [cellwiseBi, decide_eq_true e1, Res.assrt_true, Res.ok_bind, decide_eq_true e2, Res.assrt_true, Res.ok_bind]
  exact each_core op F hop _ r x y id id m R X Y rfl hr hx hy ax ay (fun i hi => by rw [e1]; exact hi) (fun i hi => by rw [e2]; exact hi)

/-- `BroadcastLeftBiCmap`: the first cell of `x` with each cell of `y`. -/
theorem C491_left [Add V] (op : Op3 V) (F : V → V → V) (hop : Acc op F) (r x y : Arr) (m : Buf V) (R X Y : Nat → V) (hr : Holds m r R) (hx : Holds m x X) (hy : Holds m y Y)
    (ax : Apart r x) (ay : Apart r y) (e1 : 0 < x.aasize) (e2 : y.aasize = r.aasize) : ∃ m', broadcastLeft op r x y m = .ok m' ∧ Becomes m m' r fun i => R i + F (X 0) (Y i) := by
  rw [broadcastLeft, decide_eq_true e2, Res.assrt_true, Res.ok_bind]
  exact each_core op F hop _ r x y (fun _ => 0) id m R X Y rfl hr hx hy ax ay (fun i hi => e1) (fun i hi => by rw [e2]; exact hi)

/-- `BroadcastRightBiCmap`: each cell of `x` with the first cell of `y`. -/
theorem C491_right [Add V] (op : Op3 V) (F : V → V → V) (hop : Acc op F) (r x y : Arr) (m : Buf V) (R X Y : Nat → V) (hr : Holds m r R) (hx : Holds m x X) (hy : Holds m y Y)
    (ax : Apart r x) (ay : Apart r y) (e1 : x.aasize = r.aasize) (e2 : 0 < y.aasize) : ∃ m', broadcastRight op r x y m = .ok m' ∧ Becomes m m' r fun i => R i + F (X i) (Y 0) := by
  rw [broadcastRight, decide_eq_true e1, Res.assrt_true, Res.ok_bind]
  exact each_core op F hop _ r x y id (fun _ => 0) m R X Y rfl hr hx hy ax ay (fun i hi => by rw [e1]; exact hi) (fun i hi => e2)

/-- `OuterBiCmap`: all pairs of cells, in row-major order. -/
theorem C491_outer [Add V] (op : Op3 V) (F : V → V → V) (hop : Acc op F) (r x y : Arr) (m : Buf V) (R X Y : Nat → V) (hr : Holds m r R) (hx : Holds m x X)
    (hy : Holds m y Y) (ax : Apart r x) (ay : Apart r y) (e : r.aasize = x.aasize * y.aasize) :
    ∃ m', outerBi op r x y m = .ok m' ∧
      (∀ i j, i < x.aasize → j < y.aasize → m' (r.cell (i * y.aasize + j)) = some (R (i * y.aasize + j) + F (X i) (Y j))) ∧
      ∀ p, (∀ i, i < r.aasize → p ≠ r.cell i) → m' p = m p := by
  let op' : Op V := fun m t x y f => if f then op m t x y else do let a ← m.read x; let b ← m.read y; m.write t (F a b)
  have hop' : Cop op' F := by
    intro m t x y a b c flag e1 e2 e3 e4 e5
    cases flag
    · simp only [op', Bool.false_eq_true, if_false, read_ok e1, read_ok e2, Res.ok_bind, write_ok e3]
    · simpa [op'] using hop m t x y a b c e1 e2 e3 e4 e5
  obtain ⟨m', g0, g1, g2⟩ := C490_outer op' F hop' r x y true m R X Y hr hx hy ax ay e
  exact ⟨m', by rw [← g0]; simp [outerBi, outer, op'], fun i j hi hj => by simpa [put] using g1 i j hi hj, g2⟩

/-- `BroadcastUCmap`: one cell onto all cells; here for an operation that adds. -/
theorem C491_broadcast [Add V] (r x : Arr) (m : Buf V) (R : Nat → V) (a : V) (hr : Holds m r R) (hx : m (x.cell 0) = some a) (ax : ∀ i, i < r.aasize → r.cell i ≠ x.cell 0)
    (e1 : x.aasize = 1) (e2 : x.dev = 0) : ∃ m', broadcastU (fun m t x => updCell (· + ·) m t x) r x m = .ok m' ∧ Becomes m m' r fun i => R i + a := by
  rw [broadcastU, decide_eq_true e1, Res.assrt_true, Res.ok_bind, decide_eq_true e2, Res.assrt_true, Res.ok_bind]
  obtain ⟨m', e, h1, h2⟩ := loop_cells r.aasize r.cell (fun i => R i + a) (fun i m => updCell (· + ·) m (r.cell i) (x.cell 0)) m
    (fun i _ j _ e => cell_inj e) (fun i hi => by rw [hr i hi]; rfl) (fun i hi m' hm' => by
      have t1 : m' (r.cell i) = some (R i) := by rw [hm' _ fun j _ hji e => hji (cell_inj e).symm]; exact hr i hi
      have t2 : m' (x.cell 0) = some a := by rw [hm' _ fun j hj _ e => ax j hj e.symm]; exact hx
      rw [updCell_ok t1 t2])
  exact ⟨m', e, h1, h2⟩

/-- Adding both cells to the target is such an operation. -/
theorem C491_plus [AddCommMonoid V] : Acc (addPlusCop (V := V)) (fun a b => a + b) := addPlusCop_acc

example : Holds (fun p => some (p : Int)) ⟨0, [3], 0⟩ (fun i => (i : Int)) ∧ Apart ⟨0, [3], 0⟩ ⟨3, [1], 0⟩ ∧ (⟨3, [1], 0⟩ : Arr).aasize = 1 := by
  refine ⟨fun i _ => by simp [Arr.cell], fun i j hi hj => ?_, by decide⟩
  simp [Arr.aasize, Arr.cell] at *; omega

/-! ### C492: sums over cells -/

/-- `InnerBiCmap`: the sum over all cells is added to the first cell of the result. -/
theorem C492_inner [AddCommMonoid V] (op : Op3 V) (F : V → V → V) (hop : Acc op F) (r x y : Arr) (m : Buf V) (c : V) (X Y : Nat → V) (hr : m (r.cell 0) = some c) (hx : Holds m x X)
    (hy : Holds m y Y) (ax : ∀ j, j < x.aasize → r.cell 0 ≠ x.cell j) (ay : ∀ j, j < y.aasize → r.cell 0 ≠ y.cell j) (e : y.aasize = x.aasize) :
    innerBi op r x y m = .ok fun p => if p = r.cell 0 then some (c + sumTo x.aasize fun i => F (X i) (Y i)) else m p := by
  rw [innerBi, decide_eq_true e, Res.assrt_true, Res.ok_bind]
  refine acc_loop _ m _ c _ _ hr fun j hj m' c' h1 h2 => ?_
  exact hop m' _ _ _ _ _ _ (by rw [h1 _ (ax j hj).symm]; exact hx j hj) (by rw [h1 _ (ay j (by omega)).symm]; exact hy j (by omega)) h2 (ax j hj) (ay j (by omega))

/-- `MprodBiCmap`: a matrix of cells times a row of cells. -/
theorem C492_mprod [AddCommMonoid V] (op : Op3 V) (F : V → V → V) (hop : Acc op F) (r x y : Arr) (m : Buf V) (R X Y : Nat → V) (hr : Holds m r R) (hx : Holds m x X) (hy : Holds m y Y)
    (ax : Apart r x) (ay : Apart r y) (e : x.aasize = r.aasize * y.aasize) :
    ∃ m', mprodBi op r x y m = .ok m' ∧ Becomes m m' r fun i => R i + sumTo y.aasize fun j => F (X (i * y.aasize + j)) (Y j) := by
  rw [mprodBi, decide_eq_true e, Res.assrt_true, Res.ok_bind]
  refine rows_core r _ _ _ m R rfl hr fun i hi m' h1 h2 => acc_loop _ m' _ (R i) _ _ h1 fun j hj m2 c' g1 g2 => ?_
  have b : i * y.aasize + j < x.aasize := by
    rw [e]
    have : (i + 1) * y.aasize ≤ r.aasize * y.aasize := Nat.mul_le_mul_right _ hi
    rw [Nat.add_mul, Nat.one_mul] at this; omega
  exact hop m2 _ _ _ _ _ _ (by rw [g1 _ (ax i _ hi b).symm, h2 _ fun k hk e => ax k _ hk b e.symm]; exact hx _ b)
    (by rw [g1 _ (ay i j hi hj).symm, h2 _ fun k hk e => ay k _ hk hj e.symm]; exact hy _ hj) g2 (ax i _ hi b) (ay i j hi hj)

example : Apart ⟨0, [2], 0⟩ ⟨2, [2, 3], 0⟩ ∧ (⟨2, [2, 3], 0⟩ : Arr).aasize = (⟨0, [2], 0⟩ : Arr).aasize * (⟨8, [3], 0⟩ : Arr).aasize := by
  refine ⟨fun i j hi hj => ?_, by decide⟩
  simp [Arr.aasize, Arr.cell] at *; omega

/-! ### C493, C494, C495: products of matrices and rows of cells -/

theorem CMap.adim_ok {a : Arr} {d0 d1 : Nat} (h : a.adims = [d0, d1]) : a.adim 0 = .ok d0 ∧ a.adim 1 = .ok d1 := by
  constructor <;> rw [Arr.adim, h] <;> rfl

theorem CMap.cell2_ok {a : Arr} {d0 d1 : Nat} (h : a.adims = [d0, d1]) (i j : Nat) : a.cell2 i j = .ok (a.cell (i * d1 + j)) := by
  rw [Arr.cell2, h]; simp [Arr.cell]

/-- The common part: first the round without adding, then those that add. -/
theorem CMap.start_acc [AddCommMonoid V] (flag : Bool) (J : Nat) (hJ : 0 < J) (m : Buf V) (t : Nat) (c : V) (g : Nat → V) (body : Nat → Bool → Buf V → Res (Buf V)) (hc : m t = some c)
    (h : ∀ j, j < J → ∀ fl m' c', (∀ p, p ≠ t → m' p = m p) → m' t = some c' → body j fl m' = .ok fun p => if p = t then some (if fl then c' + g j else g j) else m' p) :
    (if flag = false then body 0 false m >>= fun m => loop (J - if flag then 0 else 1) m fun j m => body ((if flag then 0 else 1) + j) true m
      else loop (J - if flag then 0 else 1) m fun j m => body ((if flag then 0 else 1) + j) true m) =
      .ok fun p => if p = t then some (put flag c (sumTo J g)) else m p := by
  cases flag
  · simp only [if_true, Bool.false_eq_true, if_false]
    rw [h 0 hJ false m c (fun _ _ => rfl) hc, Res.ok_bind]
    obtain ⟨J, rfl⟩ : ∃ k, J = k + 1 := ⟨J - 1, by omega⟩
    have := acc_loop J (fun p => if p = t then some (g 0) else m p) t (g 0) (fun j => g (1 + j)) (fun j m => body (1 + j) true m) (by simp) fun j hj m' c' h1 h2 => by
      rw [h (1 + j) (by omega) true m' c' (fun p hp => by rw [h1 p hp]; simp [hp]) h2]; rfl
    rw [Nat.add_sub_cancel, sumTo_succ']
    simp only [Bool.false_eq_true, if_false] at this ⊢
    rw [this]
    congr 1; funext p; by_cases hp : p = t <;> simp [hp, put]
  · simp only [Bool.true_eq_false, if_false, if_true, Nat.sub_zero, Nat.zero_add]
    exact acc_loop J m t c g _ hc fun j hj m' c' h1 h2 => by rw [h j hj true m' c' h1 h2]; rfl

/-- `MVprodCmap`, for a matrix with at least one column. -/
theorem C493_mvprod [AddCommMonoid V] (op : Op V) (F : V → V → V) (hop : Cop op F) (r x y : Arr) (I J : Nat) (flag : Bool) (m : Buf V) (R X Y : Nat → V) (hr : Holds m r R)
    (hx : Holds m x X) (hy : Holds m y Y) (ax : Apart r x) (ay : Apart r y) (hd : x.adims = [I, J]) (hR : r.aasize = I) (hY : y.aasize = J) (hJ : 0 < J) (h0 : r.dev = 0) :
    ∃ m', mvprod op r x y flag m = .ok m' ∧ Becomes m m' r fun i => put flag (R i) (sumTo J fun j => F (X (i * J + j)) (Y j)) := by
  obtain ⟨d0, d1⟩ := adim_ok hd
  rw [mvprod, d0, Res.ok_bind, d1, Res.ok_bind, decide_eq_true hR, Res.assrt_true, Res.ok_bind, decide_eq_true hY, Res.assrt_true, Res.ok_bind, if_pos h0, if_neg (by omega)]
  refine rows_core r _ _ _ m R hR.symm hr fun i hi m' h1 h2 => ?_
  have hi' : i < r.aasize := by omega
  have hs : x.aasize = I * J := by rw [Arr.aasize, hd]; simp
  simp only [cell2_ok hd, Res.ok_bind]
  refine start_acc flag J hJ m' (r.cell i) (R i) (fun j => F (X (i * J + j)) (Y j)) (fun j fl m => op m (r.cell i) (x.cell (i * J + j)) (y.cell j) fl) h1 fun j hj fl m2 c' g1 g2 => ?_
  have b : i * J + j < x.aasize := by
    rw [hs]
    have : (i + 1) * J ≤ I * J := Nat.mul_le_mul_right _ hi
    rw [Nat.add_mul, Nat.one_mul] at this; omega
  have b2 : j < y.aasize := by omega
  exact hop m2 _ _ _ _ _ _ fl (by rw [g1 _ (ax i _ hi' b).symm, h2 _ fun k hk e => ax k _ (by omega) b e.symm]; exact hx _ b)
    (by rw [g1 _ (ay i j hi' b2).symm, h2 _ fun k hk e => ay k _ (by omega) b2 e.symm]; exact hy _ b2) g2 (ax i _ hi' b) (ay i j hi' b2)

/-- `MVprodCmap` of a matrix without columns leaves the result as it is: zero for `MVprod`, which starts from zeros. -/
theorem C493_empty [AddCommMonoid V] (op : Op V) (r x y : Arr) (I : Nat) (flag : Bool) (m : Buf V) (hd : x.adims = [I, 0]) (hR : r.aasize = I) (hY : y.aasize = 0) :
    mvprod op r x y flag m = .ok m := by
  obtain ⟨d0, d1⟩ := adim_ok hd
  rw [mvprod, d0, Res.ok_bind, d1, Res.ok_bind, decide_eq_true hR, Res.assrt_true, Res.ok_bind, decide_eq_true hY, Res.assrt_true, Res.ok_bind]
  split
  · rfl
  · rfl

example : Apart ⟨0, [2], 0⟩ ⟨2, [2, 3], 0⟩ ∧ Apart ⟨0, [2], 0⟩ ⟨8, [3], 0⟩ ∧ (⟨0, [2], 0⟩ : Arr).aasize = 2 := by
  refine ⟨fun i j hi hj => ?_, fun i j hi hj => ?_, by decide⟩ <;> simp [Arr.aasize, Arr.cell] at * <;> omega

/-- `VMprodCmap`, for a matrix with at least one row. -/
theorem C494_vmprod_partial [AddCommMonoid V] (op : Op V) (F : V → V → V) (hop : Cop op F) (r x y : Arr) (I J : Nat) (flag : Bool) (m : Buf V) (R X Y : Nat → V) (hr : Holds m r R)
    (hx : Holds m x X) (hy : Holds m y Y) (ax : Apart r x) (ay : Apart r y) (hd : y.adims = [J, I]) (hR : r.aasize = I) (hX : x.aasize = J) (hJ : 0 < J) (h0 : r.dev = 0) :
    ∃ m', vmprod op r x y flag m = .ok m' ∧ Becomes m m' r fun i => put flag (R i) (sumTo J fun j => F (X j) (Y (j * I + i))) := by
  obtain ⟨d0, d1⟩ := adim_ok hd
  rw [vmprod, d0, Res.ok_bind, d1, Res.ok_bind, decide_eq_true hR, Res.assrt_true, Res.ok_bind, decide_eq_true hX, Res.assrt_true, Res.ok_bind, if_pos h0, if_neg (by omega)]
  refine rows_core r _ _ _ m R hR.symm hr fun i hi m' h1 h2 => ?_
  have hi' : i < r.aasize := by omega
  have hs : y.aasize = J * I := by rw [Arr.aasize, hd]; simp
  simp only [cell2_ok hd, Res.ok_bind]
  refine start_acc flag J hJ m' (r.cell i) (R i) (fun j => F (X j) (Y (j * I + i))) (fun j fl m => op m (r.cell i) (x.cell j) (y.cell (j * I + i)) fl) h1 fun j hj fl m2 c' g1 g2 => ?_
  have b : j * I + i < y.aasize := by
    rw [hs]
    have : (j + 1) * I ≤ J * I := Nat.mul_le_mul_right _ hj
    rw [Nat.add_mul, Nat.one_mul] at this; omega
  have b2 : j < x.aasize := by omega
  exact hop m2 _ _ _ _ _ _ fl (by rw [g1 _ (ax i j hi' b2).symm, h2 _ fun k hk e => ax k _ (by omega) b2 e.symm]; exact hx _ b2)
    (by rw [g1 _ (ay i _ hi' b).symm, h2 _ fun k hk e => ay k _ (by omega) b e.symm]; exact hy _ b) g2 (ax i j hi' b2) (ay i _ hi' b)

/-- Without rows nothing is written; `VMprod` starts from memory that is not filled, so the result is whatever lay there. -/
theorem C494_empty_fails [AddCommMonoid V] (op : Op V) (r x y : Arr) (I : Nat) (m : Buf V) (hd : y.adims = [0, I]) (hR : r.aasize = I) (hX : x.aasize = 0) :
    vmprod op r x y false m = .ok m := by
  obtain ⟨d0, d1⟩ := adim_ok hd
  rw [vmprod, d0, Res.ok_bind, d1, Res.ok_bind, decide_eq_true hR, Res.assrt_true, Res.ok_bind, decide_eq_true hX, Res.assrt_true, Res.ok_bind]
  split
  · rfl
  · rfl

/-- So with `V` the integers and 5 in the memory the product of a row without cells and a matrix without rows is 5, not 0. -/
theorem C494_junk_fails : vmprod plusCop ⟨0, [1], 0⟩ ⟨1, [0], 0⟩ ⟨1, [0, 1], 0⟩ false (fun _ => some (5 : Int)) = .ok fun _ => some 5 := rfl

example : Apart ⟨0, [2], 0⟩ ⟨8, [3], 0⟩ ∧ Apart ⟨0, [2], 0⟩ ⟨2, [3, 2], 0⟩ ∧ (⟨8, [3], 0⟩ : Arr).aasize = 3 := by
  refine ⟨fun i j hi hj => ?_, fun i j hi hj => ?_, by decide⟩ <;> simp [Arr.aasize, Arr.cell] at * <;> omega

/-- `add_inner`: the sum over the cells is added. -/
theorem C495_add_partial [AddCommMonoid V] (op : Op V) (F : V → V → V) (hop : Cop op F) (r x y : Arr) (m : Buf V) (c : V) (X Y : Nat → V) (hr : m (r.cell 0) = some c) (hx : Holds m x X)
    (hy : Holds m y Y) (ax : ∀ j, j < x.aasize → r.cell 0 ≠ x.cell j) (ay : ∀ j, j < y.aasize → r.cell 0 ≠ y.cell j) (e : y.aasize = x.aasize) (h0 : r.dev = 0) :
    inner op r x y true m = .ok fun p => if p = r.cell 0 then some (c + sumTo x.aasize fun i => F (X i) (Y i)) else m p := by
  rw [inner, decide_eq_true e, Res.assrt_true, Res.ok_bind, if_pos h0]
  refine acc_loop _ m _ c _ _ hr fun j hj m' c' h1 h2 => ?_
  exact hop m' _ _ _ _ _ _ true (by rw [h1 _ (ax j hj).symm]; exact hx j hj) (by rw [h1 _ (ay j (by omega)).symm]; exact hy j (by omega)) h2 (ax j hj) (ay j (by omega))

/-- `inner`: every round overwrites, so the last pair of cells is all that is left. -/
theorem C495_inner_fails [AddCommMonoid V] (op : Op V) (F : V → V → V) (hop : Cop op F) (r x y : Arr) (n : Nat) (m : Buf V) (c : V) (X Y : Nat → V) (hr : m (r.cell 0) = some c)
    (hx : Holds m x X) (hy : Holds m y Y) (ax : ∀ j, j < x.aasize → r.cell 0 ≠ x.cell j) (ay : ∀ j, j < y.aasize → r.cell 0 ≠ y.cell j) (e : y.aasize = x.aasize) (h0 : r.dev = 0)
    (hn : x.aasize = n + 1) : inner op r x y false m = .ok fun p => if p = r.cell 0 then some (F (X n) (Y n)) else m p := by
  rw [inner, decide_eq_true e, Res.assrt_true, Res.ok_bind, if_pos h0]
  have key : ∀ k, k ≤ x.aasize → loop k m (fun i m => op m (r.cell 0) (x.cell i) (y.cell i) false) =
      .ok fun p => if p = r.cell 0 then some (if k = 0 then c else F (X (k - 1)) (Y (k - 1))) else m p := by
    intro k
    induction k with
    | zero =>
      intro _
      have : (fun p => if p = r.cell 0 then some (if 0 = 0 then c else F (X (0 - 1)) (Y (0 - 1))) else m p) = m := by funext p; by_cases hp : p = r.cell 0 <;> simp [hp, hr]
      rw [this]; rfl
    | succ k ih =>
      intro hk
      have e' := ih (by omega)
      unfold loop at e' ⊢
      rw [List.range_succ, Res.forM_append, e', Res.ok_bind, Res.forM_cons]
      dsimp only
      rw [hop _ _ _ _ (X k) (Y k) (if k = 0 then c else F (X (k - 1)) (Y (k - 1))) false (by simp only [if_neg (ax k (by omega)).symm]; exact hx k (by omega))
          (by simp only [if_neg (ay k (by omega)).symm]; exact hy k (by omega)) (by simp) (ax k (by omega)) (ay k (by omega)), Res.ok_bind, Res.forM_nil]
      congr 1; funext p; by_cases hp : p = r.cell 0 <;> simp [hp]
  rw [key _ (by omega), hn]; simp

/-- The inner product of `(1,2)` and `(10,20)` by sums comes out as 22, not 33. -/
theorem C495_witness_fails : ((inner plusCop ⟨0, [1], 0⟩ ⟨1, [2], 0⟩ ⟨3, [2], 0⟩ false (fun p => [(0 : Int), 1, 2, 10, 20][p]?)) >>= fun m => m.read 0) = .ok 22 ∧
    sumTo 2 (fun i => [(1 : Int), 2].getD i 0 + [10, 20].getD i 0) = 33 := ⟨rfl, by decide⟩

/-- On the GPU nothing is done. -/
theorem C495_gpu_fails (op : Op V) (r x y : Arr) (flag : Bool) (m : Buf V) (e : y.aasize = x.aasize) (h0 : r.dev ≠ 0) : inner op r x y flag m = .ok m := by
  rw [inner, decide_eq_true e, Res.assrt_true, Res.ok_bind, if_neg h0]

example : (∀ j, j < (⟨1, [2], 0⟩ : Arr).aasize → (⟨0, [1], 0⟩ : Arr).cell 0 ≠ (⟨1, [2], 0⟩ : Arr).cell j) := by
  intro j hj; simp [Arr.aasize, Arr.cell] at *; omega

/-! ### C496, C497: convolutions of cells -/

/-- `Convolve2Cmap`: the windows of `x` against `y`, added to the result. -/
theorem C496_convolve [AddCommMonoid V] (op : Op V) (F : V → V → V) (hop : Cop op F) (r x y : Arr) (I0 I1 J0 J1 X0 X1 : Nat) (m : Buf V) (R X Y : Nat → V) (hr : Holds m r R)
    (hx : Holds m x X) (hy : Holds m y Y) (ax : Apart r x) (ay : Apart r y) (dr : r.adims = [I0, I1]) (dx : x.adims = [X0, X1]) (dy : y.adims = [J0, J1]) (h1 : X0 + 1 = I0 + J0)
    (h2 : X1 + 1 = I1 + J1) (h0 : r.dev = 0) :
    ∃ m', convolve2 op r x y m = .ok m' ∧
      (∀ i0 i1, i0 < I0 → i1 < I1 → m' (r.cell (i0 * I1 + i1)) =
        some (R (i0 * I1 + i1) + sumTo J0 fun j0 => sumTo J1 fun j1 => F (X ((i0 + j0) * X1 + (i1 + j1))) (Y (j0 * J1 + j1)))) ∧
      ∀ p, (∀ i, i < r.aasize → p ≠ r.cell i) → m' p = m p := by
  obtain ⟨r0, r1⟩ := adim_ok dr
  obtain ⟨x0, x1⟩ := adim_ok dx
  obtain ⟨y0, y1⟩ := adim_ok dy
  have sr : r.aasize = I0 * I1 := by rw [Arr.aasize, dr]; simp
  have sx : x.aasize = X0 * X1 := by rw [Arr.aasize, dx]; simp
  have sy : y.aasize = J0 * J1 := by rw [Arr.aasize, dy]; simp
  have two : ∀ {a b c d : Nat}, a < c → b < d → a * d + b < c * d := fun {a b c d} ha hb => by
    have : (a + 1) * d ≤ c * d := Nat.mul_le_mul_right _ ha
    rw [Nat.add_mul, Nat.one_mul] at this; omega
  have inj : ∀ i, i < I0 → ∀ j, j < I1 → ∀ k, k < I0 → ∀ l, l < I1 → r.cell (i * I1 + j) = r.cell (k * I1 + l) → i = k ∧ j = l := by
    intro i hi j hj k hk l hl e
    have e := cell_inj e
    have d1 : (j + I1 * i) / I1 = i := by rw [Nat.add_mul_div_left _ _ (by omega), Nat.div_eq_of_lt hj, Nat.zero_add]
    have d2 : (l + I1 * k) / I1 = k := by rw [Nat.add_mul_div_left _ _ (by omega), Nat.div_eq_of_lt hl, Nat.zero_add]
    have : i = k := by rw [← d1, ← d2, Nat.mul_comm _ i, Nat.mul_comm _ k, Nat.add_comm, e, Nat.add_comm]
    subst this; exact ⟨rfl, by omega⟩
  have c1 : (X0 : Int) = I0 + J0 - 1 := by omega
  have c2 : (X1 : Int) = I1 + J1 - 1 := by omega
  rw [convolve2, decide_eq_true (by simp [dr]), Res.assrt_true, Res.ok_bind, decide_eq_true (by simp [dx]), Res.assrt_true, Res.ok_bind, decide_eq_true (by simp [dy]), Res.assrt_true,
    Res.ok_bind, r0, Res.ok_bind, r1, Res.ok_bind, y0, Res.ok_bind, y1, Res.ok_bind, x0, Res.ok_bind, x1, Res.ok_bind, decide_eq_true c1, Res.assrt_true, Res.ok_bind, decide_eq_true c2,
    Res.assrt_true, Res.ok_bind, if_pos h0]
  simp only [cell2_ok dr, cell2_ok dx, cell2_ok dy, Res.ok_bind]
  obtain ⟨m', g0, g1, g2⟩ := loop2_cells I0 I1 (fun i j => r.cell (i * I1 + j))
    (fun i0 i1 => R (i0 * I1 + i1) + sumTo J0 fun j0 => sumTo J1 fun j1 => F (X ((i0 + j0) * X1 + (i1 + j1))) (Y (j0 * J1 + j1)))
    (fun i0 i1 m => loop J0 m fun j0 m => loop J1 m fun j1 m => op m (r.cell (i0 * I1 + i1)) (x.cell ((i0 + j0) * X1 + (i1 + j1))) (y.cell (j0 * J1 + j1)) true) m inj
    (fun i hi j hj => by rw [hr _ (by rw [sr]; exact two hi hj)]; rfl) (fun i hi j hj m' hm' => by
      have lt : i * I1 + j < r.aasize := by rw [sr]; exact two hi hj
      have t1 : m' (r.cell (i * I1 + j)) = some (R (i * I1 + j)) := by
        rw [hm' _ fun k hk l hl hne e => hne ?_]
        · exact hr _ lt
        · obtain ⟨a, b⟩ := inj i hi j hj k hk l hl e; exact ⟨a.symm, b.symm⟩
      rw [write_ok t1]
      refine acc_loop J0 m' _ _ _ _ t1 fun j0 hj0 m2 c2 a1 a2 => acc_loop J1 m2 _ _ _ _ a2 fun j1 hj1 m3 c3 b1 b2 => ?_
      have bx : (i + j0) * X1 + (j + j1) < x.aasize := by rw [sx]; exact two (by omega) (by omega)
      have by' : j0 * J1 + j1 < y.aasize := by rw [sy]; exact two hj0 hj1
      have n1 := ax _ _ lt bx
      have n2 := ay _ _ lt by'
      have v1 : m3 (x.cell ((i + j0) * X1 + (j + j1))) = some (X ((i + j0) * X1 + (j + j1))) := by
        rw [b1 _ n1.symm, a1 _ n1.symm, hm' _ fun k hk l hl _ e => ax _ _ (by rw [sr]; exact two hk hl) bx e.symm]; exact hx _ bx
      have v2 : m3 (y.cell (j0 * J1 + j1)) = some (Y (j0 * J1 + j1)) := by
        rw [b1 _ n2.symm, a1 _ n2.symm, hm' _ fun k hk l hl _ e => ay _ _ (by rw [sr]; exact two hk hl) by' e.symm]; exact hy _ by'
      exact hop m3 _ _ _ _ _ _ true v1 v2 b2 n1 n2)
  exact ⟨m', g0, fun i j hi hj => g1 i hi j hj, fun p hp => g2 p fun i hi j hj => hp _ (by rw [sr]; exact two hi hj)⟩

/-- Sizes that do not fit are refused. -/
theorem C496_refuses (op : Op V) (r x y : Arr) (I0 I1 J0 J1 X0 X1 : Nat) (m : Buf V) (dr : r.adims = [I0, I1]) (dx : x.adims = [X0, X1]) (dy : y.adims = [J0, J1])
    (h : X0 + 1 ≠ I0 + J0 ∨ X1 + 1 ≠ I1 + J1) : convolve2 op r x y m = .throw := by
  obtain ⟨r0, r1⟩ := adim_ok dr
  obtain ⟨x0, x1⟩ := adim_ok dx
  obtain ⟨y0, y1⟩ := adim_ok dy
  rw [convolve2, decide_eq_true (by simp [dr]), Res.assrt_true, Res.ok_bind, decide_eq_true (by simp [dx]), Res.assrt_true, Res.ok_bind, decide_eq_true (by simp [dy]), Res.assrt_true,
    Res.ok_bind, r0, Res.ok_bind, r1, Res.ok_bind, y0, Res.ok_bind, y1, Res.ok_bind, x0, Res.ok_bind, x1, Res.ok_bind]
  by_cases c1 : (X0 : Int) = I0 + J0 - 1
  · have c2 : ¬ (X1 : Int) = I1 + J1 - 1 := by omega
    rw [decide_eq_true c1, Res.assrt_true, Res.ok_bind, decide_eq_false c2]; rfl
  · rw [decide_eq_false c1]; rfl

/-- `Convolve2BiCmap` of include/Cmaps.hpp. -/
theorem C496_bi [AddCommMonoid V] (op : Op3 V) (F : V → V → V) (hop : Acc op F) (r x y : Arr) (I0 I1 J0 J1 X0 X1 : Nat) (m : Buf V) (R X Y : Nat → V) (hr : Holds m r R)
    (hx : Holds m x X) (hy : Holds m y Y) (ax : Apart r x) (ay : Apart r y) (dr : r.adims = [I0, I1]) (dx : x.adims = [X0, X1]) (dy : y.adims = [J0, J1]) (h1 : X0 + 1 = I0 + J0)
    (h2 : X1 + 1 = I1 + J1) :
    ∃ m', convolve2Bi op r x y m = .ok m' ∧
      (∀ i0 i1, i0 < I0 → i1 < I1 → m' (r.cell (i0 * I1 + i1)) =
        some (R (i0 * I1 + i1) + sumTo J0 fun j0 => sumTo J1 fun j1 => F (X ((i0 + j0) * X1 + (i1 + j1))) (Y (j0 * J1 + j1)))) ∧
      ∀ p, (∀ i, i < r.aasize → p ≠ r.cell i) → m' p = m p := by
  let op' : Op V := fun m t x y f => if f then op m t x y else do let a ← m.read x; let b ← m.read y; m.write t (F a b)
  have hop' : Cop op' F := by
    intro m t x y a b c flag e1 e2 e3 e4 e5
    cases flag
    · simp only [op', Bool.false_eq_true, if_false, read_ok e1, read_ok e2, Res.ok_bind, write_ok e3]
    · simpa [op'] using hop m t x y a b c e1 e2 e3 e4 e5
  obtain ⟨m', g0, g1, g2⟩ := C496_convolve op' F hop' { r with dev := 0 } x y I0 I1 J0 J1 X0 X1 m R X Y hr hx hy ax ay dr dx dy h1 h2 rfl
  exact ⟨m', by rw [← g0]; simp [convolve2Bi, convolve2, op'], g1, g2⟩

example : Apart ⟨0, [2, 2], 0⟩ ⟨4, [3, 4], 0⟩ ∧ Apart ⟨0, [2, 2], 0⟩ ⟨16, [2, 3], 0⟩ ∧ 3 + 1 = 2 + 2 ∧ 4 + 1 = 2 + 3 := by
  refine ⟨fun i j hi hj => ?_, fun i j hi hj => ?_, rfl, rfl⟩ <;> simp [Arr.aasize, Arr.cell] at * <;> omega

/-- `Convolve1BiCmap` with one cell more than needed in `x`: right. -/
theorem C497_convolve1_partial [AddCommMonoid V] (op : Op3 V) (F : V → V → V) (hop : Acc op F) (r x y : Arr) (m : Buf V) (R X Y : Nat → V) (hr : Holds m r R) (hx : Holds m x X)
    (hy : Holds m y Y) (ax : Apart r x) (ay : Apart r y) (e : x.aasize = r.aasize + y.aasize) :
    ∃ m', convolve1Bi op r x y m = .ok m' ∧ Becomes m m' r fun i => R i + sumTo y.aasize fun j => F (X (i + j)) (Y j) := by
  rw [convolve1Bi, decide_eq_true e, Res.assrt_true, Res.ok_bind]
  refine rows_core r _ _ _ m R rfl hr fun i hi m' h1 h2 => acc_loop _ m' _ (R i) _ _ h1 fun j hj m2 c' g1 g2 => ?_
  have b : i + j < x.aasize := by omega
  exact hop m2 _ _ _ _ _ _ (by rw [g1 _ (ax i _ hi b).symm, h2 _ fun k hk e => ax k _ hk b e.symm]; exact hx _ b)
    (by rw [g1 _ (ay i j hi hj).symm, h2 _ fun k hk e => ay k _ hk hj e.symm]; exact hy _ hj) g2 (ax i _ hi b) (ay i j hi hj)

/-- The sizes of a convolution, as `Convolve2BiCmap` takes them, are refused. -/
theorem C497_sizes_fails (op : Op3 V) (r x y : Arr) (m : Buf V) (e : x.aasize + 1 = r.aasize + y.aasize) : convolve1Bi op r x y m = .throw := by
  rw [convolve1Bi, decide_eq_false (by omega)]; rfl

example : Apart ⟨0, [2], 0⟩ ⟨2, [5], 0⟩ ∧ (⟨2, [5], 0⟩ : Arr).aasize = (⟨0, [2], 0⟩ : Arr).aasize + (⟨7, [3], 0⟩ : Arr).aasize ∧
    (⟨2, [4], 0⟩ : Arr).aasize + 1 = (⟨0, [2], 0⟩ : Arr).aasize + (⟨7, [3], 0⟩ : Arr).aasize := by
  refine ⟨fun i j hi hj => ?_, by decide, by decide⟩
  simp [Arr.aasize, Arr.cell] at *; omega

/-! ### C498: maps that never work -/

/-- `CellwiseUCmap` wants its argument on the GPU when the result is on the CPU: with both on the CPU it stops. -/
theorem C498_unary_fails (op : Buf V → Nat → Nat → Res (Buf V)) (r x : Arr) (m : Buf V) (h : x.dev = 0) : cellwiseU op r x m = .throw := by
  rw [cellwiseU]
  by_cases e : x.aasize = r.aasize
  · rw [decide_eq_true e, Res.assrt_true, Res.ok_bind, decide_eq_false (by omega)]; rfl
  · rw [decide_eq_false e]; rfl

/-- `BroadcastBinaryCmap` reads a member that was never set. -/
theorem C498_broadcast_fails (op : Op V) (r y : Arr) (x : Nat) (flag : Bool) (m : Buf V) : broadcastBinary none op r x y flag m = .ub := rfl

/-- `accumulate` calls its map without the flag, which stops. -/
theorem C498_accumulate_fails (op : Op V) (mask : Mask) (r x y : Arr) (m : Buf V) : accumulate op mask r x y false m = .throw := rfl

/-- A mask that starts empty cannot be filled. -/
theorem C498_push_fails (r x y : Nat) : Mask.push [] r x y = .ub := rfl

/-- `CellwiseBinaryCmap` does the same on the CPU without trouble, so the maps could work. -/
theorem C498_other_partial [Add V] (op : Op V) (F : V → V → V) (hop : Cop op F) (r x y : Arr) (m : Buf V) (R X Y : Nat → V) (hr : Holds m r R) (hx : Holds m x X)
    (hy : Holds m y Y) (ax : Apart r x) (ay : Apart r y) (e1 : x.aasize = r.aasize) (e2 : y.aasize = r.aasize) :
    ∃ m', cellwise op r x y false m = .ok m' ∧ Becomes m m' r fun i => F (X i) (Y i) := C490_cellwise op F hop r x y false m R X Y hr hx hy ax ay e1 e2

example : (⟨0, [2], 0⟩ : Arr).dev = 0 := rfl

end Cnine
