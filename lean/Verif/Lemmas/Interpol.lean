import Verif.Lemmas.CSR
import Verif.Model.Interpol
import Verif.Spec.Interpol
import Mathlib.Algebra.Order.Floor.Ring
import Mathlib.Tactic.Ring
import Mathlib.Tactic.Linarith
import Mathlib.Tactic.FieldSimp

/-! # Lemmas about the interpolation matrices -/

namespace Cnine

namespace Interp

open CSR PoolSpec

variable {α : Type _} [Field α] [LinearOrder α]

/-- The entries stored for the corners of a point. -/
def stored (cs : List (Int × α)) : List (Int × α) :=
  (cs.filter fun e => decide (0 < e.2)).map fun e => (e.1, e.2 / (cs.map fun e => e.2).sum)

/-- The same with the sum given. -/
def storedT (t : α) (cs : List (Int × α)) : List (Int × α) := (cs.filter fun e => decide (0 < e.2)).map fun e => (e.1, e.2 / t)

theorem stored_len (cs : List (Int × α)) : (stored cs).length = count cs := by
  unfold stored count; rw [List.length_map]

theorem place_cons {β : Type _} (e : Int × Int × β) (l : List (Int × Int × β)) (len : List Int) (p : Pool (CCell β)) :
    place (e :: l) len p = (do
      let offs ← p.offset e.2.1
      let k ← Res.get len e.2.1.toNat
      let a ← p.arr.wr (offs + 2 * k) (.ix e.1)
      let a ← a.wr (offs + 2 * k + 1) (.val e.2.2)
      let len ← bump len e.2.1
      place l len { p with arr := a }) := rfl

/-- Filling a row is the loop of the transpose for its entries. -/
theorem place_row (i : Nat) (t : α) (rest : List (Int × Int × α)) : ∀ (cs : List (Int × α)) (k : Int) (len : List Int) (c : CSR α),
    len[i]? = some k →
    place ((storedT t cs).map (fun e => (e.1, (i : Int), e.2)) ++ rest) len c.pool =
      (putRow i t cs k c >>= fun c' => place rest (len.set i (k + (storedT t cs).length)) c'.pool)
  | [], k, len, c, h => by
    obtain ⟨hi, hk⟩ := List.getElem?_eq_some_iff.mp h
    have : len.set i k = len := by rw [← hk]; exact List.set_getElem_self hi
    simp only [storedT, List.filter_nil, List.map_nil, List.nil_append, putRow, Res.ok_bind, List.length_nil, Nat.cast_zero, add_zero, this]
  | e :: cs, k, len, c, h => by
    obtain ⟨hi, hk⟩ := List.getElem?_eq_some_iff.mp h
    by_cases hw : 0 < e.2
    · have es : storedT t (e :: cs) = (e.1, e.2 / t) :: storedT t cs := by
        simp [storedT, hw]
      rw [es, List.map_cons, List.cons_append]
      rw [place_cons]
      unfold putRow
      rw [if_pos hw]
      unfold setAt
      dsimp only
      have hg : Res.get len (i : Int).toNat = .ok k := by unfold Res.get; rw [Int.toNat_natCast, h]
      rw [hg]
      have hb := bump_ok h
      cases ho : c.pool.offset (i : Int) with
      | throw => rfl
      | ub => rfl
      | ok o =>
        rw [Res.ok_bind, Res.ok_bind, Res.ok_bind]
        cases h1 : c.pool.arr.wr (o + 2 * k) (.ix e.1) with
        | throw => rfl
        | ub => rfl
        | ok a =>
          rw [Res.ok_bind, Res.ok_bind]
          cases h2 : a.wr (o + 2 * k + 1) (.val (e.2 / t)) with
          | throw => rfl
          | ub => rfl
          | ok a' =>
            rw [Res.ok_bind, Res.ok_bind, Res.ok_bind, hb, Res.ok_bind]
            have := place_row i t rest cs (k + 1) (len.set i (k + 1)) { c with pool := { c.pool with arr := a' } } (by
              rw [List.getElem?_set_self hi])
            have e2 : k + 1 + ((storedT t cs).length : Int) = k + ((storedT t cs).length + 1 : Nat) := by omega
            rw [List.set_set, e2] at this
            exact this
    · have es : storedT t (e :: cs) = storedT t cs := by simp [storedT, hw]
      rw [es]
      unfold putRow
      rw [if_neg hw]
      exact place_row i t rest cs k len c h

theorem putRow_shape (i : Int) (t : α) : ∀ (cs : List (Int × α)) (k : Int) (c c' : CSR α), putRow i t cs k c = .ok c' → c'.n = c.n ∧ c'.m = c.m
  | [], k, c, c', h => by
    unfold putRow at h
    injection h with h
    subst h
    exact ⟨rfl, rfl⟩
  | e :: cs, k, c, c', h => by
    unfold putRow at h
    split at h
    · obtain ⟨c1, h1, h2⟩ := Res.bind_eq_ok.mp h
      have := putRow_shape i t cs (k + 1) c1 c' h2
      unfold setAt at h1
      obtain ⟨o, _, h1⟩ := Res.bind_eq_ok.mp h1
      obtain ⟨a, _, h1⟩ := Res.bind_eq_ok.mp h1
      obtain ⟨a', _, h1⟩ := Res.bind_eq_ok.mp h1
      injection h1 with h1
      subst h1
      exact this
    · exact putRow_shape i t cs k c c' h

/-- The entries of the rows from `i` on, with stored number first and row second. -/
def byRow {ρ : Type _} (cs : ρ → List (Int × α)) : List ρ → Nat → List (Int × Int × α)
  | [], _ => []
  | p :: ps, i => (stored (cs p)).map (fun e => (e.1, (i : Int), e.2)) ++ byRow cs ps (i + 1)

theorem place_rows {ρ : Type _} (check : ρ → Res Unit) (cs : ρ → List (Int × α)) : ∀ (ps : List ρ) (i : Nat) (len : List Int) (c : CSR α) (p' : Pool (CCell α)),
    (∀ p ∈ ps, check p = .ok ()) → (∀ j, i ≤ j → j < i + ps.length → len[j]? = some 0) →
    place (byRow cs ps i) len c.pool = .ok p' → ∃ c', putRows check cs ps i c = .ok c' ∧ c'.pool = p' ∧ c'.n = c.n ∧ c'.m = c.m
  | [], i, len, c, p', _, _, h => by
    refine ⟨c, rfl, ?_, rfl, rfl⟩
    unfold byRow place at h
    injection h
  | p :: ps, i, len, c, p', hc, hl, h => by
    have hi := hl i (le_refl _) (by simp)
    have h' : place ((storedT (((cs p).map fun e => e.2).sum) (cs p)).map (fun e => (e.1, (i : Int), e.2)) ++ byRow cs ps (i + 1)) len c.pool = .ok p' := h
    rw [place_row i _ _ (cs p) 0 len c hi] at h'
    obtain ⟨c1, h1, h2⟩ := Res.bind_eq_ok.mp h'
    obtain ⟨e1, e2⟩ := putRow_shape _ _ _ _ _ _ h1
    obtain ⟨c', g1, g2, g3, g4⟩ := place_rows check cs ps (i + 1) _ c1 p' (fun q hq => hc q (List.mem_cons_of_mem _ hq)) (by
      intro j hj1 hj2
      rw [List.getElem?_set_ne (by omega)]
      exact hl j (by omega) (by simp; omega)) h2
    refine ⟨c', ?_, g2, g3.trans e1, g4.trans e2⟩
    unfold putRows
    rw [hc p (by simp), Res.ok_bind, h1, Res.ok_bind]
    have : (i : Int) + 1 = ((i + 1 : Nat) : Int) := by omega
    rw [this]
    exact g1

theorem lengths_ok {ρ : Type _} (check : ρ → Res Unit) (cs : ρ → List (Int × α)) : ∀ ps : List ρ, (∀ p ∈ ps, check p = .ok ()) →
    lengths check cs ps = .ok ((ps.map fun p => count (cs p)).map fun l : Nat => (l : Int))
  | [], _ => rfl
  | p :: ps, h => by
    unfold lengths
    rw [h p (by simp), Res.ok_bind, lengths_ok check cs ps fun q hq => h q (List.mem_cons_of_mem _ hq), Res.ok_bind]
    rfl

theorem lengths_throw {ρ : Type _} (check : ρ → Res Unit) (cs : ρ → List (Int × α)) : ∀ ps : List ρ, (∀ p ∈ ps, check p = .ok () ∨ check p = .throw) →
    (∃ p ∈ ps, check p = .throw) → lengths check cs ps = .throw
  | [], _, h => by obtain ⟨p, hp, _⟩ := h; simp at hp
  | p :: ps, h, hx => by
    unfold lengths
    rcases h p (by simp) with h1 | h1
    · rw [h1, Res.ok_bind, lengths_throw check cs ps (fun q hq => h q (List.mem_cons_of_mem _ hq)) (by
        obtain ⟨q, hq, hqt⟩ := hx
        rcases List.mem_cons.mp hq with e | e
        · subst e; rw [h1] at hqt; cases hqt
        · exact ⟨q, e, hqt⟩)]
      rfl
    · rw [h1]; rfl

theorem byRow_mem {ρ : Type _} (cs : ρ → List (Int × α)) : ∀ (ps : List ρ) (i : Nat), ∀ e ∈ byRow cs ps i, (i : Int) ≤ e.2.1 ∧ e.2.1 < (i + ps.length : Nat)
  | [], i, e, h => by simp [byRow] at h
  | p :: ps, i, e, h => by
    unfold byRow at h
    rcases List.mem_append.mp h with h | h
    · obtain ⟨q, _, rfl⟩ := List.mem_map.mp h
      simp
    · have := byRow_mem cs ps (i + 1) e h
      simp at this ⊢; omega

theorem col_same (v : List (Int × α)) (i : Nat) : col (v.map fun e => (e.1, (i : Int), e.2)) i = v := by
  unfold col
  rw [List.filter_eq_self.mpr (by
    intro e he
    obtain ⟨q, _, rfl⟩ := List.mem_map.mp he
    simp)]
  rw [List.map_map]
  exact List.map_id' v

theorem col_none (es : List (Int × Int × α)) (i : Nat) (h : ∀ e ∈ es, e.2.1 ≠ (i : Int)) : col es i = [] := by
  unfold col
  rw [List.filter_eq_nil_iff.mpr (by
    intro e he
    simpa using h e he)]
  rfl

theorem col_byRow {ρ : Type _} (cs : ρ → List (Int × α)) : ∀ (ps : List ρ) (i k : Nat) (p : ρ), ps[k]? = some p → col (byRow cs ps i) (i + k) = stored (cs p)
  | [], i, k, p, h => by simp at h
  | q :: ps, i, 0, p, h => by
    simp at h
    subst h
    unfold byRow
    rw [col_append, Nat.add_zero, col_same, col_none (byRow cs ps (i + 1)) i (by
      intro e he
      have := (byRow_mem cs ps (i + 1) e he).1
      omega), List.append_nil]
  | q :: ps, i, k + 1, p, h => by
    simp at h
    unfold byRow
    rw [col_append, col_none _ (i + (k + 1)) (by
      intro e he
      obtain ⟨q, _, rfl⟩ := List.mem_map.mp he
      dsimp only
      omega), List.nil_append]
    have := col_byRow cs ps (i + 1) k p h
    rw [← this]; congr 1; omega

/-- The constructors' body: for points that pass the check it builds the matrix of the stored corners. -/
theorem build_ok {ρ : Type _} (m : Int) (check : ρ → Res Unit) (cs : ρ → List (Int × α)) (ps : List ρ) (h : ∀ p ∈ ps, check p = .ok ()) :
    ∃ c, build m check cs ps = .ok c ∧ c.n = ps.length ∧ c.m = m ∧ c.Has (ps.map fun p => stored (cs p)) := by
  obtain ⟨lens, hlens⟩ : ∃ l, l = ps.map fun p => count (cs p) := ⟨_, rfl⟩
  have hcast : ∀ lens : List Nat, (lens.map fun l : Nat => (l : Int)).sum = (lens.sum : Int) := by
    intro lens
    induction lens with
    | nil => rfl
    | cons a l ih => rw [List.map_cons, List.sum_cons, List.sum_cons, ih]; push_cast; rfl
  obtain ⟨p, e1, e2, e3, e4, e5, e6, e7⟩ := Pool.reserve_ok (Pool.part_ofSize ps.length (α := CCell α)) (2 * (lens.sum : Int))
  obtain ⟨p1, f1, f2⟩ := layout_ok lens { p with tail := 0 } [] ps.length
    (Pool.part_nil (by rw [e2]; exact Dir.fits_raw ps.length) rfl (by dsimp only; omega) e6) (by simp [hlens]) (by
      dsimp only; omega)
  have hrow : ∀ k < ps.length, (col (byRow cs ps 0) k).length = lens.getD k 0 := by
    intro k hk
    have := col_byRow cs ps 0 k ps[k] (List.getElem?_eq_getElem hk)
    rw [Nat.zero_add] at this
    rw [this, stored_len, hlens, List.getD_eq_getElem?_getD, List.getElem?_map, List.getElem?_eq_getElem hk]
    rfl
  have hrange : ∀ {β : Type _} (f : Nat → β), lens.map f = (List.range ps.length).map fun k => f (lens.getD k 0) := by
    intro β f
    apply List.ext_getElem?
    intro k
    rw [List.getElem?_map, List.getElem?_map]
    by_cases c : k < ps.length
    · rw [List.getElem?_range c, Option.map_some, List.getD_eq_getElem?_getD, hlens, List.getElem?_map, List.getElem?_eq_getElem c]
      rfl
    · rw [List.getElem?_eq_none (by rw [hlens, List.length_map]; omega), List.getElem?_eq_none (by simpa using c)]; rfl
  obtain ⟨p2, g1, g2⟩ := place_ok (m := ps.length) (fun k => lens.getD k 0) (byRow cs ps 0) [] p1
    (fun e he => by have := byRow_mem cs ps 0 e he; simpa using this)
    (fun j hj => by rw [List.nil_append]; exact hrow j hj) (by
      rw [List.nil_append, hrange] at f2
      exact f2)
  obtain ⟨c', k1, k2, k3, k4⟩ := place_rows check cs ps 0 _ ⟨p1, ps.length, m⟩ p2 h (by
    intro j _ hj
    rw [List.getElem?_map, List.getElem?_range (by omega)]; rfl) g1
  refine ⟨c', ?_, k3, k4, ?_⟩
  · unfold build
    rw [lengths_ok check cs ps h, Res.ok_bind, ← hlens, hcast, e1, Res.ok_bind]
    have f1' : layout 0 (lens.map fun l : Nat => (l : Int)) { p with tail := 0 } = .ok p1 := f1
    rw [f1', Res.ok_bind]
    exact k1
  · unfold Has
    rw [k2]
    rw [List.nil_append] at g2
    have : ((List.range ps.length).map fun j => open' (lens.getD j 0) (col (byRow cs ps 0) j)) =
        (ps.map fun p => stored (cs p)).map crow := by
      apply List.ext_getElem?
      intro k
      rw [List.getElem?_map, List.getElem?_map, List.getElem?_map]
      by_cases c : k < ps.length
      · rw [List.getElem?_range c, List.getElem?_eq_getElem c, Option.map_some, Option.map_some, Option.map_some,
          open_full (hrow k c)]
        have := col_byRow cs ps 0 k ps[k] (List.getElem?_eq_getElem c)
        rw [Nat.zero_add] at this
        rw [this]
      · rw [List.getElem?_eq_none (by simpa using c), List.getElem?_eq_none (by omega)]; rfl
    rw [← this]
    exact g2

theorem build_throw {ρ : Type _} (m : Int) (check : ρ → Res Unit) (cs : ρ → List (Int × α)) (ps : List ρ) (h : ∀ p ∈ ps, check p = .ok () ∨ check p = .throw)
    (hx : ∃ p ∈ ps, check p = .throw) : build m check cs ps = .throw := by
  unfold build
  rw [lengths_throw check cs ps h hx]
  rfl

/-- The entries of row `i`. -/
theorem filter_row {β : Type _} (f : Nat → List (Int × β)) : ∀ (n i : Nat), i < n →
    ((listRows 0 ((List.range n).map f)).filter fun e => decide (e.1 = (i : Int))) = (f i).map fun q => ((i : Int), q.1, q.2) := by
  intro n i hi
  rw [listRows_range]
  induction n with
  | zero => omega
  | succ n ih =>
    rw [List.range_succ, List.flatMap_append, List.filter_append, List.flatMap_cons, List.flatMap_nil, List.append_nil]
    by_cases c : i = n
    · subst c
      rw [List.filter_eq_nil_iff.mpr (by
        intro e he
        obtain ⟨a, ha, he⟩ := List.mem_flatMap.mp he
        obtain ⟨q, _, rfl⟩ := List.mem_map.mp he
        have := List.mem_range.mp ha
        simp; omega), List.nil_append, List.filter_eq_self.mpr (by
        intro e he
        obtain ⟨q, _, rfl⟩ := List.mem_map.mp he
        simp)]
    · rw [ih (by omega), List.filter_eq_nil_iff.mpr (by
        intro e he
        obtain ⟨q, _, rfl⟩ := List.mem_map.mp he
        simp; omega), List.append_nil]

theorem mem_rows {β : Type _} {f : Nat → List (Int × β)} {n : Nat} {e : Int × Int × β} (h : e ∈ listRows 0 ((List.range n).map f)) :
    ∃ i < n, e.1 = (i : Int) ∧ (e.2.1, e.2.2) ∈ f i := by
  rw [listRows_range] at h
  obtain ⟨a, ha, he⟩ := List.mem_flatMap.mp h
  obtain ⟨q, hq, rfl⟩ := List.mem_map.mp he
  exact ⟨a, List.mem_range.mp ha, rfl, hq⟩

variable [IsStrictOrderedRing α] [FloorRing α]

theorem inside_ok {n : Int} {x : α} (h0 : 0 ≤ x) (h1 : x ≤ (n : α) - 1) : inside n x = .ok () := by
  unfold inside
  rw [decide_eq_true (by push_cast; exact ⟨h0, h1⟩)]; rfl

theorem inside_throw {n : Int} {x : α} (h : ¬ (0 ≤ x ∧ x ≤ (n : α) - 1)) : inside n x = .throw := by
  unfold inside
  rw [decide_eq_false (by push_cast; exact h)]; rfl

/-- A coordinate inside the grid: the lower corner, the remainder, and the upper corner where it matters. -/
theorem part_ok {N : Int} {x : α} (h0 : 0 ≤ x) (h1 : x ≤ (N : α) - 1) :
    0 ≤ ⌊x⌋ ∧ ⌊x⌋ < N ∧ 0 ≤ x - ⌊x⌋ ∧ x - ⌊x⌋ < 1 ∧ (0 < x - ⌊x⌋ → ⌊x⌋ + 1 < N) := by
  have a1 := Int.floor_nonneg.mpr h0
  have a2 : ((⌊x⌋ : Int) : α) ≤ x := Int.floor_le x
  have a3 : x < ⌊x⌋ + 1 := Int.lt_floor_add_one x
  refine ⟨a1, ?_, by linarith, by linarith, ?_⟩
  · have : ((⌊x⌋ : Int) : α) < (N : α) := by linarith
    exact_mod_cast this
  · intro h
    have : (((⌊x⌋ + 1 : Int)) : α) < (N : α) := by push_cast; linarith
    exact_mod_cast this

/-- Entries that are stored, when the weights add up to one. -/
theorem mem_stored {cs : List (Int × α)} (hs : (cs.map fun e => e.2).sum = 1) {e : Int × α} (h : e ∈ stored cs) : e ∈ cs ∧ 0 < e.2 := by
  unfold stored at h
  rw [hs] at h
  obtain ⟨q, hq, rfl⟩ := List.mem_map.mp h
  obtain ⟨h1, h2⟩ := List.mem_filter.mp hq
  rw [div_one]
  exact ⟨h1, of_decide_eq_true h2⟩

/-- The corners left out do not matter. -/
theorem sum_stored {cs : List (Int × α)} (hs : (cs.map fun e => e.2).sum = 1) (hn : ∀ e ∈ cs, 0 ≤ e.2) (g : Int → α) :
    ((stored cs).map fun e => e.2 * g e.1).sum = (cs.map fun e => e.2 * g e.1).sum := by
  unfold stored
  rw [hs, List.map_map]
  clear hs
  induction cs with
  | nil => rfl
  | cons e cs ih =>
    have ih := ih fun e he => hn e (List.mem_cons_of_mem _ he)
    by_cases c : 0 < e.2
    · rw [List.filter_cons_of_pos (by simpa using c), List.map_cons, List.sum_cons, ih, List.map_cons, List.sum_cons]
      simp
    · have : e.2 = 0 := le_antisymm (not_lt.mp c) (hn e (by simp))
      rw [List.filter_cons_of_neg (by simpa using c), ih, List.map_cons, List.sum_cons, this, zero_mul, zero_add]

end Interp

end Cnine
