import Verif.Props.Graph
import Verif.Lemmas.Sparse
import Mathlib.Data.List.NodupEquivFin

/-! # C121–C124: making graphs -/

namespace Cnine.SGraph

variable {α : Type}

theorem ofPairs_sets (one : α) (n : Int) (l : List (Int × Int)) :
    ofPairs one n l = sets n (l.flatMap fun p => [(p.1, p.2, one), (p.2, p.1, one)]) := by
  unfold ofPairs sets
  generalize (new n : SGraph α) = g
  induction l generalizing g with
  | nil => rfl
  | cons p l ih => rw [List.foldl_cons, ih, List.flatMap_cons, List.foldl_append]; rfl

theorem lastU_const {l : List (Int × Int × α)} {one : α} (h : ∀ e ∈ l, e.2.2 = one) (i j : Int) :
    lastU l i j = some one ↔ (i, j, one) ∈ l ∨ (j, i, one) ∈ l := by
  constructor
  · exact lastU_mem
  · intro hm
    have : (lastU l i j).isSome := by
      rw [lastU_isSome]
      rcases hm with hm | hm
      · exact List.mem_map.mpr ⟨_, hm, rfl⟩
      · exact List.mem_map.mpr ⟨_, hm, by unfold ends; rw [min_comm, max_comm]⟩
    obtain ⟨x, hx⟩ := Option.isSome_iff_exists.mp this
    have hx1 : x = one := by
      rcases lastU_mem hx with h' | h'
      · exact h _ h'
      · exact h _ h'
    rw [hx, hx1]

theorem ofPairs_look (one : α) (n : Int) (l : List (Int × Int)) : MoM.Ok (ofPairs one n l).data ∧ (ofPairs one n l).n = n ∧
    ∀ i j x, MoM.look (ofPairs one n l).data i j = some x ↔ x = one ∧ ((i, j) ∈ l ∨ (j, i) ∈ l) := by
  rw [ofPairs_sets]
  obtain ⟨h1, h2⟩ := sets_look n (l.flatMap fun p => [(p.1, p.2, one), (p.2, p.1, one)])
  have hc : ∀ e ∈ l.flatMap (fun p => [(p.1, p.2, one), (p.2, p.1, one)]), e.2.2 = one := by
    intro e he
    obtain ⟨p, _, hp⟩ := List.mem_flatMap.mp he
    simp at hp
    rcases hp with rfl | rfl <;> rfl
  have hm : ∀ i j, (i, j, one) ∈ l.flatMap (fun p => [(p.1, p.2, one), (p.2, p.1, one)]) ↔ (i, j) ∈ l ∨ (j, i) ∈ l := by
    intro i j
    rw [List.mem_flatMap]
    constructor
    · rintro ⟨p, hp, h⟩
      simp at h
      rcases h with ⟨rfl, rfl⟩ | ⟨rfl, rfl⟩
      · exact Or.inl hp
      · exact Or.inr hp
    · rintro (h | h)
      · exact ⟨_, h, by simp⟩
      · exact ⟨_, h, by simp⟩
  refine ⟨h1, sets_n _ _, fun i j x => ?_⟩
  rw [h2]
  constructor
  · intro hx
    have hx1 : x = one := by
      rcases lastU_mem hx with h' | h'
      · exact hc _ h'
      · exact hc _ h'
    subst hx1
    refine ⟨rfl, ?_⟩
    rcases (lastU_const hc i j).mp hx with h' | h'
    · exact (hm _ _).mp h'
    · exact ((hm _ _).mp h').symm
  · rintro ⟨rfl, h⟩
    exact (lastU_const hc i j).mpr (Or.inl ((hm _ _).mpr h))

theorem size_of_pairs {m : MoM Int Int α} (h : MoM.Ok m) {P : List (Int × Int)} (hP : P.Nodup)
    (hm : ∀ i j, (i, j) ∈ P ↔ (MoM.look m i j).isSome) : m.size = P.length := by
  rw [MoM.size_eq, show m.forEach.length = (m.forEach.map fun e => (e.1, e.2.1)).length by rw [List.length_map]]
  apply List.Perm.length_eq
  rw [List.perm_ext_iff_of_nodup (MoM.forEach_nodup h) hP]
  rintro ⟨i, j⟩
  rw [hm, List.mem_map]
  constructor
  · rintro ⟨⟨a, b, x⟩, he, e⟩
    injection e with e1 e2
    dsimp only at e1 e2
    subst e1 e2
    rw [(MoM.mem_forEach h).mp he]; rfl
  · intro hs
    obtain ⟨x, hx⟩ := Option.isSome_iff_exists.mp hs
    exact ⟨(i, j, x), (MoM.mem_forEach h).mpr hx, rfl⟩

/-- A weighted graph in which exactly the pairs satisfying `E` are edges, with weight `one`. -/
def Is (g : SGraph α) (n : Int) (one : α) (E : Int → Int → Prop) : Prop :=
  g.n = n ∧ ∀ i j x, MoM.look g.data i j = some x ↔ x = one ∧ E i j

theorem Is.isSome {g : SGraph α} {n : Int} {one : α} {E : Int → Int → Prop} (h : Is g n one E) (i j : Int) :
    (MoM.look g.data i j).isSome ↔ E i j := by
  rw [Option.isSome_iff_exists]
  constructor
  · rintro ⟨x, hx⟩; exact ((h.2 i j x).mp hx).2
  · intro he; exact ⟨one, (h.2 i j one).mpr ⟨rfl, he⟩⟩

/-- The constructors from pairs: an edge of weight one for each pair given, in either order. -/
theorem C121_ofPairs (one : α) (n : Int) (l : List (Int × Int)) : Is (ofPairs one n l) n one fun i j => (i, j) ∈ l ∨ (j, i) ∈ l :=
  (ofPairs_look one n l).2

/-- Without a number of vertices, it is large enough for all pairs with non-negative ends. -/
theorem C121_ofPairsMax (one : α) (l : List (Int × Int)) :
    (∀ p ∈ l, p.1 < (ofPairsMax one l).n ∧ p.2 < (ofPairsMax one l).n) ∧ 1 ≤ (ofPairsMax one l).n ∧
      Is (ofPairsMax one l) (ofPairsMax one l).n one fun i j => (i, j) ∈ l ∨ (j, i) ∈ l := by
  have key : ∀ (l : List (Int × Int)) (t : Int), t ≤ l.foldl (fun t p => max (max p.1 p.2) t) t ∧
      ∀ p ∈ l, p.1 ≤ l.foldl (fun t p => max (max p.1 p.2) t) t ∧ p.2 ≤ l.foldl (fun t p => max (max p.1 p.2) t) t := by
    intro l
    induction l with
    | nil => intro t; exact ⟨le_refl _, by simp⟩
    | cons p l ih =>
      intro t
      obtain ⟨h1, h2⟩ := ih (max (max p.1 p.2) t)
      rw [List.foldl_cons]
      refine ⟨by omega, fun q hq => ?_⟩
      rcases List.mem_cons.mp hq with rfl | hq
      · omega
      · exact h2 q hq
  have hn : (ofPairsMax one l).n = l.foldl (fun t p => max (max p.1 p.2) t) 0 + 1 := (ofPairs_look _ _ _).2.1
  refine ⟨fun p hp => ?_, ?_, ?_⟩
  · rw [hn]
    have := (key l 0).2 p hp
    omega
  · rw [hn]
    have := (key l 0).1
    omega
  · rw [hn]
    exact C121_ofPairs _ _ _

/-- **Complete graph**: exactly the pairs of different vertices; `n(n-1)/2` edges. -/
theorem C121_complete (one : α) (n : Nat) :
    Is (complete one n) n one (fun i j => i ≠ j ∧ 0 ≤ i ∧ i < n ∧ 0 ≤ j ∧ j < n) ∧ (complete one n).nedges = (n * (n - 1) / 2 : Nat) := by
  obtain ⟨hok, hn, hl⟩ := ofPairs_look one n ((List.range n).flatMap fun (i : Nat) => (List.range i).map fun (j : Nat) => ((i : Int), (j : Int)))
  have hm : ∀ i j : Int, (i, j) ∈ ((List.range n).flatMap fun (i : Nat) => (List.range i).map fun (j : Nat) => ((i : Int), (j : Int))) ↔
      j < i ∧ 0 ≤ j ∧ i < n := by
    intro i j
    simp only [List.mem_flatMap, List.mem_range, List.mem_map, Prod.mk.injEq]
    constructor
    · rintro ⟨a, ha, b, hb, rfl, rfl⟩; omega
    · rintro ⟨h1, h2, h3⟩
      exact ⟨i.toNat, by omega, j.toNat, by omega, by omega, by omega⟩
  have his : Is (complete one n) n one (fun i j => i ≠ j ∧ 0 ≤ i ∧ i < n ∧ 0 ≤ j ∧ j < n) := by
    refine ⟨hn, fun i j x => ?_⟩
    unfold complete
    rw [hl, hm, hm]
    refine and_congr_right (fun _ => ?_)
    omega
  refine ⟨his, ?_⟩
  unfold nedges
  have hsz := size_of_pairs (m := (complete one n).data) hok
    (P := (List.range n).flatMap fun (i : Nat) => ((List.range n).filter fun j => decide (j ≠ i)).map fun (j : Nat) => ((i : Int), (j : Int))) ?_ ?_
  · rw [hsz]
    have : ∀ k ≤ n, ((List.range k).flatMap fun (i : Nat) => ((List.range n).filter fun j => decide (j ≠ i)).map
        fun (j : Nat) => ((i : Int), (j : Int))).length = k * (n - 1) := by
      intro k hk
      induction k with
      | zero => simp
      | succ k ih =>
        rw [List.range_succ, List.flatMap_append, List.length_append, ih (by omega)]
        simp only [List.flatMap_cons, List.flatMap_nil, List.append_nil, List.length_map]
        have hc : ((List.range n).filter fun j => decide (j ≠ k)).length + 1 = n := by
          have h1 := List.length_eq_countP_add_countP (fun j => decide (j ≠ k)) (l := List.range n)
          rw [List.countP_eq_length_filter, List.length_range] at h1
          have h2 : List.countP (fun a => decide ¬(decide (a ≠ k)) = true) (List.range n) = 1 := by
            have h3 : List.count k (List.range n) = 1 := List.count_eq_one_of_mem List.nodup_range (List.mem_range.mpr (by omega))
            rw [← h3, List.count]
            congr 1
            funext a
            by_cases c : a = k <;> simp [c]
          omega
        rw [Nat.succ_mul]
        omega
    rw [this n (le_refl _)]
  · rw [List.nodup_flatMap]
    constructor
    · intro i _
      refine (List.nodup_range.filter _).map (fun a b e => ?_)
      injection e with _ e
      omega
    · refine List.Pairwise.imp ?_ List.nodup_range
      intro a b hne
      show List.Disjoint _ _
      intro p hp hq
      obtain ⟨_, _, rfl⟩ := List.mem_map.mp hp
      obtain ⟨_, _, e⟩ := List.mem_map.mp hq
      injection e with e1 _
      omega
  · intro i j
    rw [his.isSome]
    simp only [List.mem_flatMap, List.mem_range, List.mem_map, Prod.mk.injEq, List.mem_filter, decide_eq_true_eq]
    constructor
    · rintro ⟨a, ha, b, ⟨hb, hne⟩, rfl, rfl⟩; omega
    · rintro ⟨h1, h2, h3, h4, h5⟩
      exact ⟨i.toNat, by omega, j.toNat, ⟨by omega, by omega⟩, by omega, by omega⟩

/-- **Star**: the vertex 0 joined to each of the `m` others; `m` edges. -/
theorem C121_star (one : α) (m : Nat) :
    Is (star one m) (m + 1) one (fun i j => (i = 0 ∧ 1 ≤ j ∧ j ≤ m) ∨ (j = 0 ∧ 1 ≤ i ∧ i ≤ m)) ∧ (star one m).nedges = m := by
  obtain ⟨hok, hn, hl⟩ := ofPairs_look one ((m : Int) + 1) ((List.range m).map fun (i : Nat) => ((0 : Int), (i : Int) + 1))
  have hm : ∀ i j : Int, (i, j) ∈ ((List.range m).map fun (i : Nat) => ((0 : Int), (i : Int) + 1)) ↔ i = 0 ∧ 1 ≤ j ∧ j ≤ m := by
    intro i j
    simp only [List.mem_range, List.mem_map, Prod.mk.injEq]
    constructor
    · rintro ⟨a, ha, rfl, rfl⟩; omega
    · rintro ⟨rfl, h2, h3⟩
      exact ⟨(j - 1).toNat, by omega, rfl, by omega⟩
  have his : Is (star one m) (m + 1) one (fun i j => (i = 0 ∧ 1 ≤ j ∧ j ≤ m) ∨ (j = 0 ∧ 1 ≤ i ∧ i ≤ m)) := by
    refine ⟨hn, fun i j x => ?_⟩
    unfold star
    rw [hl, hm, hm]
  refine ⟨his, ?_⟩
  unfold nedges
  have hsz := size_of_pairs (m := (star one m).data) hok
    (P := ((List.range m).map fun (i : Nat) => ((0 : Int), (i : Int) + 1)) ++ (List.range m).map fun (i : Nat) => ((i : Int) + 1, (0 : Int))) ?_ ?_
  · rw [hsz]
    simp only [List.length_append, List.length_map, List.length_range]
    omega
  · rw [List.nodup_append]
    refine ⟨List.nodup_range.map (fun a b e => ?_), List.nodup_range.map (fun a b e => ?_), ?_⟩
    · injection e with _ e; omega
    · injection e with e _; omega
    · rintro a ha b hb rfl
      obtain ⟨_, _, rfl⟩ := List.mem_map.mp ha
      obtain ⟨_, _, e⟩ := List.mem_map.mp hb
      injection e with e1 _; omega
  · intro i j
    rw [his.isSome, List.mem_append, hm]
    refine or_congr_right ?_
    simp only [List.mem_range, List.mem_map, Prod.mk.injEq]
    constructor
    · rintro ⟨a, ha, rfl, rfl⟩; omega
    · rintro ⟨rfl, h2, h3⟩
      exact ⟨(i - 1).toNat, by omega, by omega, rfl⟩

theorem cycle_is (one : α) {n : Nat} (hn : 1 ≤ n) : MoM.Ok (cycle one n).data ∧
    Is (cycle one n) n one (fun i j => 0 ≤ i ∧ i < n ∧ 0 ≤ j ∧ j < n ∧ (j = (i + 1) % n ∨ i = (j + 1) % n)) := by
  obtain ⟨hok, hn', hl⟩ := ofPairs_look one n (((List.range (n - 1)).map fun (i : Nat) => ((i : Int), (i : Int) + 1)) ++ [((n : Int) - 1, 0)])
  have hmod : ∀ i : Int, 0 ≤ i → i < n → (i + 1) % n = if i = n - 1 then 0 else i + 1 := by
    intro i h0 h1
    by_cases c : i = n - 1
    · rw [if_pos c, c]; simp
    · rw [if_neg c, Int.emod_eq_of_lt (by omega) (by omega)]
  have hm : ∀ i j : Int, (i, j) ∈ (((List.range (n - 1)).map fun (i : Nat) => ((i : Int), (i : Int) + 1)) ++ [((n : Int) - 1, 0)]) ↔
      0 ≤ i ∧ i < n ∧ j = if i = n - 1 then 0 else i + 1 := by
    intro i j
    simp only [List.mem_append, List.mem_range, List.mem_map, Prod.mk.injEq, List.mem_singleton]
    constructor
    · rintro (⟨a, ha, rfl, rfl⟩ | ⟨rfl, rfl⟩)
      · rw [if_neg (by omega)]; omega
      · rw [if_pos rfl]; omega
    · rintro ⟨h1, h2, h3⟩
      split at h3
      · right; omega
      · left; exact ⟨i.toNat, by omega, by omega, by omega⟩
  refine ⟨hok, hn', fun i j x => ?_⟩
  unfold cycle
  rw [hl, hm, hm]
  refine and_congr_right (fun _ => ?_)
  constructor
  · rintro (⟨h1, h2, h3⟩ | ⟨h1, h2, h3⟩)
    · refine ⟨h1, h2, ?_, ?_, Or.inl (by rw [hmod i h1 h2]; exact h3)⟩ <;> (split at h3 <;> omega)
    · refine ⟨?_, ?_, h1, h2, Or.inr (by rw [hmod j h1 h2]; exact h3)⟩ <;> (split at h3 <;> omega)
  · rintro ⟨h1, h2, h3, h4, h5 | h5⟩
    · rw [hmod i h1 h2] at h5; exact Or.inl ⟨h1, h2, h5⟩
    · rw [hmod j h3 h4] at h5; exact Or.inr ⟨h3, h4, h5⟩

/-- **Cycle**: for `n ≥ 3` each vertex is joined to the next, cyclically; `n` edges. -/
theorem C121_cycle (one : α) {n : Nat} (hn : 3 ≤ n) :
    Is (cycle one n) n one (fun i j => 0 ≤ i ∧ i < n ∧ 0 ≤ j ∧ j < n ∧ (j = (i + 1) % n ∨ i = (j + 1) % n)) ∧ (cycle one n).nedges = n := by
  obtain ⟨hok, his⟩ := cycle_is one (n := n) (by omega)
  refine ⟨his, ?_⟩
  have hmod : ∀ i : Int, 0 ≤ i → i < n → (i + 1) % n = if i = n - 1 then 0 else i + 1 := by
    intro i h0 h1
    by_cases c : i = n - 1
    · rw [if_pos c, c]; simp
    · rw [if_neg c, Int.emod_eq_of_lt (by omega) (by omega)]
  unfold nedges
  have hsz := size_of_pairs (m := (cycle one n).data) hok
    (P := ((List.range n).map fun (i : Nat) => ((i : Int), ((i : Int) + 1) % n)) ++ (List.range n).map fun (i : Nat) => (((i : Int) + 1) % n, (i : Int))) ?_ ?_
  · rw [hsz]
    simp only [List.length_append, List.length_map, List.length_range]
    omega
  · rw [List.nodup_append]
    refine ⟨List.nodup_range.map (fun a b e => ?_), List.nodup_range.map (fun a b e => ?_), ?_⟩
    · injection e with e _; omega
    · injection e with _ e; omega
    · rintro a ha b hb rfl
      obtain ⟨x, hx, rfl⟩ := List.mem_map.mp ha
      obtain ⟨y, hy, e⟩ := List.mem_map.mp hb
      injection e with e1 e2
      rw [List.mem_range] at hx hy
      rw [hmod y (by omega) (by omega)] at e1
      rw [hmod x (by omega) (by omega)] at e2
      split at e1 <;> split at e2 <;> omega
  · intro i j
    rw [his.isSome, List.mem_append]
    simp only [List.mem_range, List.mem_map, Prod.mk.injEq]
    have hb : ∀ i : Int, 0 ≤ i → i < n → 0 ≤ (i + 1) % n ∧ (i + 1) % n < n := by
      intro i h0 h1
      rw [hmod i h0 h1]
      split <;> omega
    constructor
    · rintro (⟨a, ha, rfl, rfl⟩ | ⟨a, ha, rfl, rfl⟩)
      · have := hb a (by omega) (by omega)
        exact ⟨by omega, by omega, this.1, this.2, Or.inl rfl⟩
      · have := hb a (by omega) (by omega)
        exact ⟨this.1, this.2, by omega, by omega, Or.inr rfl⟩
    · rintro ⟨h1, h2, h3, h4, rfl | rfl⟩
      · exact Or.inl ⟨i.toNat, by omega, by omega, by rw [Int.toNat_of_nonneg h1]⟩
      · exact Or.inr ⟨j.toNat, by omega, by rw [Int.toNat_of_nonneg h3], by omega⟩

example : (complete (1 : Int) 4).nedges = 6 ∧ (cycle (1 : Int) 4).forEachEdge.map (fun e => (e.1, e.2.1)) = [(0, 1), (0, 3), (1, 2), (2, 3)] := by
  decide

/-- **Short cycles**: `cycle(1)` has a loop, so that packing it overflows; `cycle(0)` has an edge between `0` and `-1` on no vertices. -/
theorem C122_short_cycle_fails : (cycle (1 : Int) 1).forEachEdge = [(0, 0, 1)] ∧ (cycle (1 : Int) 1).asIntPool = .ub ∧
    (cycle (1 : Int) 0).n = 0 ∧ (cycle (1 : Int) 0).forEachEdge = [(-1, 0, 1)] := by decide

/-- `trivial`, `edge`, `triangle`, `square` (combinatorial/sparse_graph.hpp:105-115) are the complete and cyclic graphs of their size. -/
theorem C122_small [DecidableEq α] (one : α) : (ofPairs one 2 [(0, 1)]).eq (complete one 2) = true ∧
    (ofPairs one 3 [(0, 1), (1, 2), (2, 0)]).eq (complete one 3) = true ∧
    (ofPairs one 4 [(0, 1), (1, 2), (2, 3), (3, 0)]).eq (cycle one 4) = true := by
  refine ⟨?_, ?_, ?_⟩ <;> simp [ofPairs, complete, cycle, eq, new, set, MoM.set, MoM.beq, MoM.subsetOf, UMap.set, UMap.find?, List.range, List.range.loop]

/-! ## Dense form -/

/-- The dense form holds the weights, zero where there is no edge. -/
theorem C123_dense [Zero α] {n : Nat} {l : List (Int × Int × α)} (h : InRange n l) :
    ∃ a, (sets n l).dense = .ok a ∧ a.length = n * n ∧
      ∀ i j : Nat, i < n → j < n → a[n * i + j]? = some (some ((lastU l i j).getD 0)) := by
  obtain ⟨h1, h2⟩ := sets_look (n : Int) l
  have hz : (SpMat.zeros (n : Int) n : Arr α) = List.replicate (n * n) (some 0) := by
    unfold SpMat.zeros
    congr 1
  unfold dense
  rw [sets_n, hz]
  obtain ⟨b, g1, g2, g3⟩ := SpMat.store_ok n n (sets (n : Int) l).data.forEach (List.replicate (n * n) (some 0)) (by simp) (by
    rintro ⟨i, j, v⟩ he
    have := (MoM.mem_forEach h1).mp he
    rw [h2] at this
    have := h.lt (i := i) (j := j) (by rw [this]; rfl)
    dsimp only
    omega)
  refine ⟨b, g1, g2, fun i j hi hj => ?_⟩
  rw [g3 i j hi hj]
  have hlt : n * i + j < n * n := by
    calc n * i + j < n * i + n := by omega
      _ = n * (i + 1) := by rw [Nat.mul_succ]
      _ ≤ n * n := Nat.mul_le_mul_left _ hi
  have hls : SpMat.lastOf (sets (n : Int) l).data.forEach i j = lastU l i j := by
    apply Option.ext
    intro v
    rw [SpMat.lastOf_iff, MoM.mem_forEach h1, h2]
    have := MoM.forEach_nodup h1
    rw [List.Nodup, List.pairwise_map] at this
    exact this
  rw [hls, List.getElem?_replicate, if_pos hlt]
  cases lastU l i j <;> rfl

/-- The entries read by the constructor from a dense tensor. -/
def lower [Zero α] [DecidableEq α] (n : Nat) (x : Nat → Nat → α) : List (Int × Int × α) :=
  (((List.range n).flatMap fun (i : Nat) => (List.range (i + 1)).map fun (j : Nat) => (i, j)).filter fun p => decide (x p.1 p.2 ≠ 0)).map
    fun (p : Nat × Nat) => ((p.1 : Int), (p.2 : Int), x p.1 p.2)

theorem ofDense_sets [Zero α] [DecidableEq α] (n : Nat) (x : Nat → Nat → α) : ofDense n x = sets n (lower n x) := by
  unfold ofDense sets lower
  generalize (new (n : Int) : SGraph α) = g
  generalize ((List.range n).flatMap fun (i : Nat) => (List.range (i + 1)).map fun (j : Nat) => (i, j)) = L
  induction L generalizing g with
  | nil => rfl
  | cons p L ih =>
    rw [List.foldl_cons, ih]
    by_cases c : x p.1 p.2 ≠ 0
    · rw [if_pos c, List.filter_cons, if_pos (by simpa using c)]; rfl
    · rw [if_neg c, List.filter_cons, if_neg (by simpa using c)]

theorem mem_lower [Zero α] [DecidableEq α] (n : Nat) (x : Nat → Nat → α) (i j : Int) (v : α) : (i, j, v) ∈ lower n x ↔
    ∃ a b : Nat, i = a ∧ j = b ∧ b ≤ a ∧ a < n ∧ v = x a b ∧ v ≠ 0 := by
  unfold lower
  simp only [List.mem_map, List.mem_filter, List.mem_flatMap, List.mem_range, decide_eq_true_eq, Prod.exists, Prod.mk.injEq]
  constructor
  · rintro ⟨a, b, ⟨⟨a', ha, b', hb, rfl, rfl⟩, hx⟩, rfl, rfl, rfl⟩
    exact ⟨_, _, rfl, rfl, by omega, by omega, rfl, hx⟩
  · rintro ⟨a, b, rfl, rfl, h1, h2, rfl, h3⟩
    exact ⟨a, b, ⟨⟨a, h2, b, by omega, rfl, rfl⟩, h3⟩, rfl, rfl, rfl⟩

theorem lower_inRange [Zero α] [DecidableEq α] (n : Nat) (x : Nat → Nat → α) : InRange n (lower n x) := by
  rintro ⟨i, j, v⟩ he
  obtain ⟨a, b, rfl, rfl, h1, h2, -, -⟩ := (mem_lower n x _ _ _).mp he
  dsimp only
  omega

/-- **From and to a dense tensor**: the graph of a tensor has its lower triangle as weights; for a symmetric tensor the dense form of the
graph is the tensor again. -/
theorem C123_ofDense [Zero α] [DecidableEq α] (n : Nat) (x : Nat → Nat → α) :
    (∀ a b : Nat, b ≤ a → a < n → (ofDense n x).data.get 0 a b = x a b ∧ (ofDense n x).data.get 0 b a = x a b) ∧
      ((∀ a b, a < n → b < n → x a b = x b a) →
        ∃ m, (ofDense n x).dense = .ok m ∧ m.length = n * n ∧ ∀ i j : Nat, i < n → j < n → m[n * i + j]? = some (some (x i j))) := by
  rw [ofDense_sets]
  have key : ∀ a b : Nat, b ≤ a → a < n → (lastU (lower n x) a b).getD 0 = x a b := by
    intro a b hb ha
    cases hl : lastU (lower n x) a b with
    | some v =>
      rcases lastU_mem hl with h | h
      · obtain ⟨a', b', e1, e2, -, -, hv, -⟩ := (mem_lower n x _ _ _).mp h
        rw [Option.getD_some, hv, Int.natCast_inj.mp e1, Int.natCast_inj.mp e2]
      · obtain ⟨a', b', e1, e2, h3, -, hv, -⟩ := (mem_lower n x _ _ _).mp h
        rw [Option.getD_some, hv, ← Int.natCast_inj.mp e1, ← Int.natCast_inj.mp e2]
        have e1' := Int.natCast_inj.mp e1
        have e2' := Int.natCast_inj.mp e2
        have : a = b := by omega
        rw [this]
    | none =>
      rw [Option.getD_none]
      by_contra hx
      have hm : ((a : Int), (b : Int), x a b) ∈ lower n x := (mem_lower n x _ _ _).mpr ⟨a, b, rfl, rfl, hb, ha, rfl, fun h => hx h.symm⟩
      have : (lastU (lower n x) a b).isSome := by
        rw [lastU_isSome]
        exact List.mem_map.mpr ⟨_, hm, rfl⟩
      rw [hl] at this
      cases this
  refine ⟨fun a b hb ha => ?_, fun hs => ?_⟩
  · obtain ⟨h1, h2⟩ := C70_weight (n : Int) (lower n x) 0 a b
    rw [← h2, h1, key a b hb ha]
    exact ⟨rfl, rfl⟩
  · obtain ⟨m, h1, h2, h3⟩ := C123_dense (lower_inRange n x)
    refine ⟨m, h1, h2, fun i j hi hj => ?_⟩
    rw [h3 i j hi hj]
    by_cases c : j ≤ i
    · rw [key i j c hi]
    · rw [lastU_comm, key j i (by omega) hj, hs i j hi hj]

example : ∀ a b, a < 2 → b < 2 → (fun i j => if i = j then (0 : Int) else 3) a b = (fun i j => if i = j then (0 : Int) else 3) b a := by
  intro a b _ _
  simp only [eq_comm]

/-! ## Inserting a graph -/

theorem lastU_append (l l' : List (Int × Int × α)) (i j : Int) : lastU (l ++ l') i j = (lastU l' i j).or (lastU l i j) := by
  unfold lastU
  rw [List.reverse_append, List.find?_append]
  cases List.find? _ l'.reverse <;> rfl

theorem sets_append (n : Int) (l l' : List (Int × Int × α)) : sets n (l ++ l') = l'.foldl (fun g e => g.set e.1 e.2.1 e.2.2) (sets n l) := by
  simp [sets, List.foldl_append]

theorem vat_ok {v : List Int} {i : Int} (h0 : 0 ≤ i) (h : i < v.length) : ∃ x, vat v i = .ok x ∧ v[i.toNat]? = some x := by
  refine ⟨v[i.toNat]'(by omega), ?_, List.getElem?_eq_getElem _⟩
  unfold vat
  rw [if_neg (by omega), List.getElem?_eq_getElem (by omega)]

/-- **Inserting a graph along distinct vertices**: an edge of `H` overwrites the edge between the images of its ends; everything else
stays. -/
theorem C124_insert {n : Int} {l lh : List (Int × Int × α)} {v : List Int} (hv : v.Nodup) (hvn : ∀ p ∈ v, p < n) (nh : Int)
    (hh : InRange v.length lh) :
    ∃ g, (sets n l).insert (sets nh lh) v = .ok g ∧ g.n = n ∧
      (∀ (i j : Nat) (a b : Int), v[i]? = some a → v[j]? = some b → MoM.look g.data a b = (lastU lh i j).or (lastU l a b)) ∧
      ∀ a b, (a ∉ v ∨ b ∉ v) → MoM.look g.data a b = lastU l a b := by
  obtain ⟨he1, he2⟩ := C70_edges nh lh
  -- the images of the edges
  have key : ∀ (E : List (Int × Int × α)), (∀ e ∈ E, (lastU lh e.1 e.2.1).isSome) → ∀ g : SGraph α,
      ∃ L : List (Int × Int × α), Res.forM E g (fun g e => vat v e.1 >>= fun a => vat v e.2.1 >>= fun b => .ok (g.set a b e.2.2)) =
        .ok (L.foldl (fun g e => g.set e.1 e.2.1 e.2.2) g) ∧
        ∀ a b x, (a, b, x) ∈ L ↔ ∃ i j : Nat, ((i : Int), (j : Int), x) ∈ E ∧ v[i]? = some a ∧ v[j]? = some b := by
    intro E
    induction E with
    | nil => intro _ g; exact ⟨[], rfl, by simp⟩
    | cons e E ih =>
      intro hE g
      have hb := hh.lt (hE e List.mem_cons_self)
      obtain ⟨a, ha, ha'⟩ := vat_ok hb.1 hb.2.1
      obtain ⟨b, hb', hb''⟩ := vat_ok hb.2.2.1 hb.2.2.2
      obtain ⟨L, hL, hm⟩ := ih (fun e he => hE e (List.mem_cons_of_mem _ he)) (g.set a b e.2.2)
      refine ⟨(a, b, e.2.2) :: L, ?_, fun a' b' x => ?_⟩
      · rw [Res.forM_cons, ha, Res.ok_bind, hb', Res.ok_bind, Res.ok_bind, hL]; rfl
      · rw [List.mem_cons, hm]
        constructor
        · rintro (h | ⟨i, j, h1, h2, h3⟩)
          · injection h with h1 h2
            injection h2 with h2 h3
            subst h1 h2 h3
            refine ⟨e.1.toNat, e.2.1.toNat, ?_, ha', hb''⟩
            rw [Int.toNat_of_nonneg hb.1, Int.toNat_of_nonneg hb.2.2.1]
            exact List.mem_cons_self
          · exact ⟨i, j, List.mem_cons_of_mem _ h1, h2, h3⟩
        · rintro ⟨i, j, h1, h2, h3⟩
          rcases List.mem_cons.mp h1 with h1 | h1
          · left
            rw [← h1] at ha' hb''
            simp only [Int.toNat_natCast] at ha' hb''
            rw [h2] at ha'
            rw [h3] at hb''
            injection ha' with ha'
            injection hb'' with hb''
            rw [ha', hb'', ← h1]
          · exact Or.inr ⟨i, j, h1, h2, h3⟩
  obtain ⟨L, hL, hm⟩ := key (sets nh lh).forEachEdge (fun e he => by
    have := ((he2 e.1 e.2.1 e.2.2).mp he).2
    rw [this]; rfl) (sets n l)
  refine ⟨sets n (l ++ L), ?_, sets_n _ _, ?_, ?_⟩
  · unfold insert
    rw [assrt_ok (by rw [sets_n]; exact hvn), Res.ok_bind, hL, sets_append]
  · intro i j a b hi hj
    rw [(sets_look n (l ++ L)).2, lastU_append]
    have hinj : ∀ {p q : Nat} {c : Int}, v[p]? = some c → v[q]? = some c → p = q := by
      intro p q c hp hq
      obtain ⟨h1, e1⟩ := List.getElem?_eq_some_iff.mp hp
      obtain ⟨h2, e2⟩ := List.getElem?_eq_some_iff.mp hq
      exact (List.Nodup.getElem_inj_iff hv).mp (e1.trans e2.symm)
    have hLx : ∀ x, lastU L a b = some x → lastU lh i j = some x := by
      intro x hx
      rcases lastU_mem hx with h | h
      · obtain ⟨i', j', h1, h2, h3⟩ := (hm _ _ _).mp h
        rw [hinj hi h2, hinj hj h3]
        exact ((he2 _ _ _).mp h1).2
      · obtain ⟨j', i', h1, h2, h3⟩ := (hm _ _ _).mp h
        rw [hinj hi h3, hinj hj h2, lastU_comm]
        exact ((he2 _ _ _).mp h1).2
    cases hx : lastU L a b with
    | some x => rw [hLx x hx, Option.some_or]
    | none =>
      cases hy : lastU lh i j with
      | none => rfl
      | some y =>
        exfalso
        have : (lastU L a b).isSome := by
          rw [lastU_isSome]
          by_cases c : i ≤ j
          · exact List.mem_map.mpr ⟨(a, b, y), (hm _ _ _).mpr ⟨i, j, (he2 _ _ _).mpr ⟨by omega, hy⟩, hi, hj⟩, rfl⟩
          · rw [lastU_comm] at hy
            refine List.mem_map.mpr ⟨(b, a, y), (hm _ _ _).mpr ⟨j, i, (he2 _ _ _).mpr ⟨by omega, hy⟩, hj, hi⟩, ?_⟩
            unfold ends
            rw [min_comm, max_comm]
        rw [hx] at this
        cases this
  · intro a b hab
    rw [(sets_look n (l ++ L)).2, lastU_append]
    cases hx : lastU L a b with
    | none => rfl
    | some x =>
      exfalso
      have : a ∈ v ∧ b ∈ v := by
        rcases lastU_mem hx with h | h
        · obtain ⟨i', j', h1, h2, h3⟩ := (hm _ _ _).mp h
          exact ⟨List.mem_of_getElem? h2, List.mem_of_getElem? h3⟩
        · obtain ⟨j', i', h1, h2, h3⟩ := (hm _ _ _).mp h
          exact ⟨List.mem_of_getElem? h3, List.mem_of_getElem? h2⟩
      rcases hab with h | h
      · exact h this.1
      · exact h this.2

example : (sets 5 [(0, 4, (1 : Int))]).insert (sets 3 [(0, 1, 7), (1, 2, 8)]) [4, 0, 2] =
    .ok ⟨5, [(0, [(4, 7), (2, 8)]), (4, [(0, 7)]), (2, [(0, 8)])]⟩ := by decide

end Cnine.SGraph
