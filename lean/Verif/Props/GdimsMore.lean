import Verif.Model.GdimsMore
import Verif.Lemmas.TProgram
import Mathlib.Algebra.BigOperators.Group.List.Basic
import Mathlib.Data.List.Lex
import Mathlib.Tactic.Ring

/-!
# Sizes, indices and sets of axes
-/

namespace Cnine

namespace GDM

theorem at_ok {α : Type _} {l : List α} {i : Nat} (h : i < l.length) : at' l i = .ok l[i] := by
  rw [at', if_neg (by omega), Int.toNat_natCast, Res.get, List.getElem?_eq_getElem h]

/-! ## C547: sizes of products of matrices -/

/-- The entries of a product are indexed by the indices of both factors but the ones summed over: the last of the first factor and the first of the second, or with a transposed factor the
other ones. -/
theorem C547_mprod (xs ys : List Int) (k l : Int) :
    mprod 0 1 (xs ++ [k]) (l :: ys) = .ok (xs ++ ys) ∧ mprod 0 0 (xs ++ [k]) (ys ++ [l]) = .ok (xs ++ ys) ∧
    mprod 1 1 (k :: xs) (l :: ys) = .ok (xs ++ ys) ∧ mprod 1 0 (k :: xs) (ys ++ [l]) = .ok (xs ++ ys) := by
  have A : ∀ (zs : List Int) (a : Int), allBut (zs ++ [a]) 0 = .ok zs := fun zs a => by
    cases zs with
    | nil => rfl
    | cons b zs => simp [allBut]
  have B : ∀ (zs : List Int) (a : Int), allBut (a :: zs) 1 = .ok zs := fun zs a => by simp [allBut]
  have L : ∀ (zs : List Int) (a : Int), (zs ++ [a]).length = zs.length + 1 := fun zs a => by simp
  refine ⟨?_, ?_, ?_, ?_⟩
  · rw [mprod, if_neg (by rw [L, List.length_cons]; omega), A, B]; rfl
  · rw [mprod, if_neg (by rw [L, L]; omega), A, A]; rfl
  · rw [mprod, if_neg (by rw [List.length_cons, List.length_cons]; omega), B, B]; rfl
  · rw [mprod, if_neg (by rw [L, List.length_cons]; omega), B, A]; rfl

/-- A factor without axes: the function throws, or leaves the vector. -/
theorem C547_no_axes (s t : Nat) (x : List Int) :
    (mprod s t [] x = if x.length < 2 then .throw else .ub) ∧ (mprod s t x [] = if x.length < 2 then .throw else .ub) := by
  refine ⟨?_, ?_⟩
  · rw [mprod, List.length_nil, Nat.zero_add]
    split
    · rfl
    · rfl
  · rw [mprod, List.length_nil, Nat.add_zero]
    split
    · rfl
    · cases x with
      | nil => rfl
      | cons a x => rfl

/-- A 3×4 matrix times a 4×5 matrix. -/
example : mprod 0 1 [3, 4] [4, 5] = .ok [3, 5] := rfl

/-! ## C548: sizes of products of matrices with vectors -/

/-- A batch of matrices times a batch of vectors: the function gives sizes exactly if the batches and the number of columns agree, and then those of a batch of vectors with one entry for each row. -/
theorem C548_mvprod (x y r : List Int) : mvprod x y = .ok r ↔ ∃ b n m, x = b ++ [n, m] ∧ y = b ++ [m] ∧ r = b ++ [n] := by
  constructor
  · intro h
    by_cases h1 : (y.length : Int) = x.length - 1
    · rw [mvprod] at h
      simp only [decide_eq_true h1, Res.assrt_true, Res.ok_bind] at h
      have hx : x ≠ [] := by rintro rfl; simp at h1
      obtain ⟨x', m, rfl⟩ := List.eq_nil_or_concat x |>.resolve_left hx
      have hl : (x'.concat m).length = x'.length + 1 := List.length_concat
      rw [hl] at h h1
      have hy : y.length = x'.length := by omega
      by_cases h0 : x' = []
      · subst h0
        have : y = [] := List.eq_nil_of_length_eq_zero hy
        subst this
        cases h
      · obtain ⟨b, n, rfl⟩ := List.eq_nil_or_concat x' |>.resolve_left h0
        have hy0 : y ≠ [] := by rintro rfl; simp at hy
        obtain ⟨b', m', rfl⟩ := List.eq_nil_or_concat y |>.resolve_left hy0
        have hb : b'.length = b.length := by simpa using hy
        have e1 : (((b.concat n).length + 1 : Nat) : Int) - 1 - 1 = (b.length : Int) := by rw [List.length_concat]; push_cast; omega
        have e2 : (((b.concat n).length + 1 : Nat) : Int) - 1 = ((b.length + 1 : Nat) : Int) := by rw [List.length_concat]; push_cast; omega
        rw [e1, e2] at h
        have c1 : gvChunk ((b.concat n).concat m) 0 (b.length : Int) = .ok b := by
          rw [gvChunk]
          simp only [List.concat_eq_append, List.length_append, List.length_singleton]
          rw [if_neg (by omega), if_neg (by omega), if_neg (by omega), if_neg (by omega)]
          simp
        have c2 : gvChunk (b'.concat m') 0 (b.length : Int) = .ok b' := by
          rw [gvChunk]
          simp only [List.concat_eq_append, List.length_append, List.length_singleton]
          rw [if_neg (by omega), if_neg (by omega), if_neg (by omega), if_neg (by omega), ← hb]
          simp
        rw [c1, c2, Res.ok_bind, Res.ok_bind] at h
        by_cases g1 : b = b'
        · subst g1
          have d1 : at' ((b.concat n).concat m) ((b.length + 1 : Nat) : Int) = .ok m := by rw [at_ok (by simp)]; simp
          have d2 : at' (b.concat m') (b.length : Int) = .ok m' := by rw [at_ok (by simp)]; simp
          have d3 : at' ((b.concat n).concat m) (b.length : Int) = .ok n := by rw [at_ok (by simp)]; simp
          rw [decide_eq_true rfl, Res.assrt_true, Res.ok_bind, d1, d2, d3, Res.ok_bind, Res.ok_bind, Res.ok_bind] at h
          by_cases g2 : m = m'
          · subst g2
            rw [decide_eq_true rfl, Res.assrt_true, Res.ok_bind, Int.toNat_natCast] at h
            refine ⟨b, n, m, by simp, by simp, ?_⟩
            cases h
            simp
          · rw [decide_eq_false g2] at h
            cases h
        · rw [decide_eq_false g1] at h
          cases h
    · rw [mvprod] at h
      simp only [decide_eq_false h1] at h
      cases h
  · rintro ⟨b, n, m, rfl, rfl, rfl⟩
    have l1 : (b ++ [n, m]).length = b.length + 2 := by simp
    have l2 : (b ++ [m]).length = b.length + 1 := by simp
    have c1 : gvChunk (b ++ [n, m]) 0 (b.length : Int) = .ok b := by
      rw [gvChunk]
      simp only [l1]
      rw [if_neg (by omega), if_neg (by omega), if_neg (by omega), if_neg (by omega)]
      simp
    have c2 : gvChunk (b ++ [m]) 0 (b.length : Int) = .ok b := by
      rw [gvChunk]
      simp only [l2]
      rw [if_neg (by omega), if_neg (by omega), if_neg (by omega), if_neg (by omega)]
      simp
    have d1 : at' (b ++ [n, m]) ((b.length + 1 : Nat) : Int) = .ok m := by rw [at_ok (by simp)]; simp
    have d2 : at' (b ++ [m]) (b.length : Int) = .ok m := by rw [at_ok (by simp)]; simp
    have d3 : at' (b ++ [n, m]) (b.length : Int) = .ok n := by rw [at_ok (by simp)]; simp
    have e1 : ((b ++ [n, m]).length : Int) - 1 - 1 = (b.length : Int) := by rw [l1]; push_cast; omega
    have e2 : ((b ++ [n, m]).length : Int) - 1 = ((b.length + 1 : Nat) : Int) := by rw [l1]; push_cast; omega
    have e3 : ((b ++ [m]).length : Int) = ((b.length + 1 : Nat) : Int) := by rw [l2]
    rw [mvprod]
    have e4 : ((b.length + 1 : Nat) : Int) - 1 = (b.length : Int) := by omega
    simp only [e1, e2, e3, e4, decide_true, Res.assrt_true, Res.ok_bind, Int.toNat_natCast]
    rw [c1, Res.ok_bind, c2, Res.ok_bind, decide_eq_true rfl, Res.assrt_true, Res.ok_bind, d1, Res.ok_bind, d2, Res.ok_bind, decide_eq_true rfl, Res.assrt_true, Res.ok_bind, d3, Res.ok_bind]
    simp

/-- A batch of two 3×4 matrices and a batch of two vectors of length 4. -/
example : mvprod [2, 3, 4] [2, 4] = .ok [2, 3] := rfl

/-! ## C549: combined sizes -/

theorem combined_eq (d : List Int) (a b : Nat) (h : a ≤ b) (hb : b ≤ d.length) : combined d a b = .ok ((d.drop a).take (b - a)).prod := by
  have h1 : (a : Int) ≤ b := by omega
  have h2 : (0 : Int) ≤ b ∧ (b : Int) ≤ d.length := by omega
  rw [combined, decide_eq_true h1, decide_eq_true h2, Res.assrt_true, Res.ok_bind, Res.ok_bind, show ((b : Int) - a).toNat = b - a by omega]
  have key : ∀ n, n ≤ b - a → Cnine.loop n (1 : Int) (fun i t => do
      let v ← at' d ((a : Int) + i)
      .ok (t * v)) = .ok ((d.drop a).take n).prod := by
    intro n
    induction n with
    | zero => intro _; simp [Cnine.loop]
    | succ n ih =>
      intro hn
      rw [loop_snoc, ih (by omega), Res.ok_bind, show (a : Int) + n = ((a + n : Nat) : Int) by push_cast; rfl, at_ok (by omega), Res.ok_bind, List.take_add_one]
      rw [List.getElem?_drop, List.getElem?_eq_getElem (by omega)]
      simp [List.prod_append]
  exact key _ (Nat.le_refl _)

/-- `combined(a,b)` is the product of the sizes of the axes from `a` to before `b`; it throws if `b` is before `a` or behind the last axis. -/
theorem C549_combined (d : List Int) (a : Nat) (b : Int) : combined d a b = if a ≤ b ∧ b ≤ d.length then .ok ((d.drop a).take (b.toNat - a)).prod else .throw := by
  split
  case isTrue h =>
    obtain ⟨b, rfl⟩ := Int.eq_ofNat_of_zero_le (show (0 : Int) ≤ b by omega)
    rw [Int.toNat_natCast]
    exact combined_eq d a b (by omega) (by omega)
  case isFalse h =>
    rw [combined]
    by_cases h1 : (a : Int) ≤ b
    · rw [decide_eq_true h1, decide_eq_false (by omega)]; rfl
    · rw [decide_eq_false h1]; rfl

/-- A negative start reads before the vector. -/
theorem C549_negative (d : List Int) (a b : Int) (ha : a < 0) (h : 0 ≤ b) (hb : b ≤ d.length) : combined d a b = .ub := by
  rw [combined, decide_eq_true (show a ≤ b by omega), decide_eq_true (show 0 ≤ b ∧ b ≤ d.length from ⟨h, hb⟩), Res.assrt_true, Res.ok_bind, Res.ok_bind]
  obtain ⟨n, hn⟩ : ∃ n, (b - a).toNat = n + 1 := ⟨(b - a).toNat - 1, by omega⟩
  rw [hn]
  clear hn
  induction n with
  | zero => rw [loop_snoc]; simp [Cnine.loop, at', ha]
  | succ n ih => rw [loop_snoc, ih]; rfl

/-- Neighbouring ranges: the sizes multiply. -/
theorem C549_split (d : List Int) (a b c : Nat) (h1 : a ≤ b) (h2 : b ≤ c) (h3 : c ≤ d.length) :
    ∃ s t, combined d a b = .ok s ∧ combined d b c = .ok t ∧ combined d a c = .ok (s * t) := by
  refine ⟨_, _, combined_eq d a b h1 (by omega), combined_eq d b c h2 h3, ?_⟩
  rw [combined_eq d a c (by omega) h3, ← List.prod_append]
  congr 2
  rw [show c - a = (b - a) + (c - b) by omega, List.take_add, List.drop_drop, show a + (b - a) = b by omega]

example : combined [2, 3, 4, 5] 1 3 = .ok 12 := rfl

/-! ## C550: sets of axes -/

theorem select_ok (d s : List Int) (h : ∀ p ∈ s, 0 ≤ p ∧ p < d.length) : select d s = .ok (s.map fun p => d.getD p.toNat 0) := by
  induction s with
  | nil => rfl
  | cons p s ih =>
    have hp := h p List.mem_cons_self
    obtain ⟨k, rfl⟩ := Int.eq_ofNat_of_zero_le hp.1
    rw [select, decide_eq_true hp, Res.assrt_true, Res.ok_bind, at_ok (by omega), Res.ok_bind, ih fun q hq => h q (List.mem_cons_of_mem _ hq), Res.ok_bind, List.map_cons, Int.toNat_natCast,
      List.getD_eq_getElem?_getD, List.getElem?_eq_getElem (by omega)]
    rfl

/-- The sizes of the axes in a set, in increasing order. -/
theorem C550_select (d s : List Int) : select d s = if ∀ p ∈ s, 0 ≤ p ∧ p < d.length then .ok (s.map fun p => d.getD p.toNat 0) else .throw := by
  split
  case isTrue h => exact select_ok d s h
  case isFalse h =>
    induction s with
    | nil => exact absurd (by simp) h
    | cons p s ih =>
      by_cases hp : 0 ≤ p ∧ p < d.length
      · have : ¬ ∀ q ∈ s, 0 ≤ q ∧ q < d.length := fun g => h fun q hq => by
          rcases List.mem_cons.1 hq with rfl | hq
          · exact hp
          · exact g q hq
        obtain ⟨k, rfl⟩ := Int.eq_ofNat_of_zero_le hp.1
        rw [select, decide_eq_true hp, Res.assrt_true, Res.ok_bind, at_ok (by omega), Res.ok_bind, ih this]
        rfl
      · rw [select, decide_eq_false hp]; rfl

theorem unite_from (d s : List Int) (t : Int) : uniteFrom d t s = (do let r ← select d s; .ok (t * r.prod)) := by
  induction s generalizing t with
  | nil => simp [uniteFrom, select, Res.ok_bind]
  | cons p s ih =>
    by_cases hp : 0 ≤ p ∧ p < d.length
    · obtain ⟨k, rfl⟩ := Int.eq_ofNat_of_zero_le hp.1
      rw [uniteFrom, select, decide_eq_true hp, Res.assrt_true, Res.ok_bind, Res.ok_bind, at_ok (by omega), Res.ok_bind, Res.ok_bind, ih]
      cases select d s with
      | ok r => simp [Res.ok_bind, mul_assoc]
      | throw => rfl
      | ub => rfl
    · rw [uniteFrom, select, decide_eq_false hp]; rfl

/-- The combined size of the axes in a set is the product of their sizes. -/
theorem C550_unite (d s : List Int) : unite d s = (do let r ← select d s; .ok r.prod) := by
  rw [unite, unite_from]
  simp only [one_mul]

/-- Two sets that share no axis and have all of them: the combined sizes multiply to the number of entries. -/
theorem C550_all (d s t : List Int) (h : (s ++ t).Perm ((List.range d.length).map Int.ofNat)) :
    ∃ a b, unite d s = .ok a ∧ unite d t = .ok b ∧ a * b = d.prod := by
  have hm : ∀ p ∈ s ++ t, 0 ≤ p ∧ p < d.length := fun p hp => by
    obtain ⟨i, hi, rfl⟩ := List.mem_map.1 (h.mem_iff.1 hp)
    have := List.mem_range.1 hi
    exact ⟨Int.natCast_nonneg i, Int.ofNat_lt.2 this⟩
  refine ⟨_, _, by rw [C550_unite, select_ok d s fun p hp => hm p (List.mem_append_left _ hp), Res.ok_bind], by rw [C550_unite, select_ok d t fun p hp => hm p (List.mem_append_right _ hp), Res.ok_bind], ?_⟩
  rw [← List.prod_append, ← List.map_append, (h.map _).prod_eq, List.map_map]
  congr 1
  apply List.ext_getElem
  · simp
  · intro i h1 h2
    simp [List.getD_eq_getElem?_getD, h2]

example : unite [2, 3, 4] [0, 2] = .ok 8 ∧ unite [2, 3, 4] [1] = .ok 3 := ⟨rfl, rfl⟩
example : ([0, 2] ++ [1] : List Int).Perm ((List.range [(2 : Int), 3, 4].length).map Int.ofNat) := by decide

/-! ## C551: checks of indices -/

theorem inRange_iff (d ix : List Int) (h : d.length = ix.length) : inRangeLoop d ix = if List.Forall₂ (fun i n => 0 ≤ i ∧ i < n) ix d then .ok () else .throw := by
  induction d generalizing ix with
  | nil =>
    obtain rfl : ix = [] := List.eq_nil_of_length_eq_zero h.symm
    rw [if_pos .nil]
    rfl
  | cons n d ih =>
    cases ix with
    | nil => cases h
    | cons i ix =>
      rw [inRangeLoop]
      change (if i < 0 ∨ i ≥ n then _ else inRangeLoop d ix) = _
      by_cases hi : i < 0 ∨ i ≥ n
      · rw [if_pos hi, if_neg (fun g => by cases g with | cons a b => omega)]
      · rw [if_neg hi, ih ix (Nat.succ.inj h)]
        by_cases g : List.Forall₂ (fun i n => 0 ≤ i ∧ i < n) ix d
        · rw [if_pos g, if_pos (.cons (by omega) g)]
        · rw [if_neg g, if_neg (fun h => by cases h with | cons _ b => exact g b)]

/-- `Gdims::check_in_range(ix)` passes exactly for indices that have one entry for each axis, from 0 to before its size, and throws otherwise. -/
theorem C551_dims (d ix : List Int) : checkInRange d ix = if List.Forall₂ (fun i n => 0 ≤ i ∧ i < n) ix d then .ok () else .throw := by
  rw [checkInRange]
  by_cases h : d.length = ix.length
  · rw [if_neg (not_not.2 h), inRange_iff d ix h]
  · rw [if_pos h, if_neg fun g => h g.length_eq.symm]

/-- So does `Gindex::check_range(dims)`. -/
theorem C551_index (ix d : List Int) : checkRange ix d = if List.Forall₂ (fun i n => 0 ≤ i ∧ i < n) ix d then .ok () else .throw := by
  rw [checkRange]
  by_cases h : ix.length = d.length
  · rw [if_neg (not_not.2 h)]
    have key : ∀ (ix d : List Int), ix.length = d.length → (List.Forall₂ (fun i n => 0 ≤ i ∧ i < n) ix d ↔ (ix.any fun p => decide (p < 0)) = false ∧ ((ix.zip d).any fun p => decide (p.1 ≥ p.2)) = false) := by
      intro ix
      induction ix with
      | nil => intro d h; obtain rfl : d = [] := List.eq_nil_of_length_eq_zero h.symm; simp
      | cons i ix ih =>
        intro d h
        cases d with
        | nil => cases h
        | cons n d =>
          rw [List.forall₂_cons, ih d (Nat.succ.inj h)]
          simp only [List.any_cons, List.zip_cons_cons, Bool.or_eq_false_iff, decide_eq_false_iff_not]
          constructor
          · rintro ⟨⟨a, b⟩, c, e⟩; exact ⟨⟨by omega, c⟩, by omega, e⟩
          · rintro ⟨⟨a, c⟩, b, e⟩; exact ⟨⟨by omega, by omega⟩, c, e⟩
    by_cases g : List.Forall₂ (fun i n => 0 ≤ i ∧ i < n) ix d
    · obtain ⟨a, b⟩ := (key ix d h).1 g
      rw [if_pos g, a, b]
      rfl
    · rw [if_neg g]
      cases a : ix.any fun p => decide (p < 0) with
      | true => rfl
      | false =>
        cases b : (ix.zip d).any fun p => decide (p.1 ≥ p.2) with
        | true => rfl
        | false => exact absurd ((key ix d h).2 ⟨a, b⟩) g
  · rw [if_pos h, if_neg fun g => h g.length_eq]

example : checkInRange [2, 3] [1, 2] = .ok () ∧ checkInRange [2, 3] [1, 3] = .throw ∧ checkRange [1, -1] [2, 3] = .throw := ⟨rfl, rfl, rfl⟩

/-- The constructor from a vector drops negative entries, so that a vector outside the range passes the check of a tensor with fewer axes. -/
theorem C551_negative_fails : checkInRange [3] [-1, 2] = .throw ∧ checkRange (index [-1, 2]) [3] = .ok () := ⟨rfl, rfl⟩

/-! ## C552: the order of vectors -/

theorem lt_iff (x y : List Int) : lt x y = true ↔ x < y := by
  induction x generalizing y with
  | nil => cases y <;> simp [lt]
  | cons a x ih =>
    cases y with
    | nil => simp [lt]
    | cons b y =>
      rw [lt, List.cons_lt_cons_iff]
      split
      · next h => subst h; simp [ih]
      · next h => simp [h]

/-- `operator<` is the lexicographic order, in which a beginning of a vector comes before it. -/
theorem C552_lex (x y : List Int) : lt x y = true ↔ (∃ z, z ≠ [] ∧ y = x ++ z) ∨ ∃ p a b u v, x = p ++ a :: u ∧ y = p ++ b :: v ∧ a < b := by
  induction x generalizing y with
  | nil =>
    cases y with
    | nil => simp [lt]
    | cons b y => simp [lt]
  | cons c x ih =>
    cases y with
    | nil =>
      simp only [lt, Bool.false_eq_true, List.cons_append, List.nil_eq, reduceCtorEq, and_false, exists_false, false_or, false_iff, not_exists]
      rintro p a b u v ⟨_, h, _⟩
      simp at h
    | cons d y =>
      rw [lt]
      split
      · next h =>
        subst h
        rw [ih y]
        constructor
        · rintro (⟨z, hz, rfl⟩ | ⟨p, a, b, u, v, rfl, rfl, hab⟩)
          · exact .inl ⟨z, hz, rfl⟩
          · exact .inr ⟨c :: p, a, b, u, v, rfl, rfl, hab⟩
        · rintro (⟨z, hz, h⟩ | ⟨p, a, b, u, v, h1, h2, hab⟩)
          · exact .inl ⟨z, hz, by simpa using h⟩
          · cases p with
            | nil =>
              simp only [List.nil_append, List.cons.injEq] at h1 h2
              omega
            | cons e p =>
              simp only [List.cons_append, List.cons.injEq] at h1 h2
              exact .inr ⟨p, a, b, u, v, h1.2, h2.2, hab⟩
      · next h =>
        rw [decide_eq_true_iff]
        constructor
        · intro hcd
          exact .inr ⟨[], c, d, x, y, rfl, rfl, hcd⟩
        · rintro (⟨z, hz, g⟩ | ⟨p, a, b, u, v, h1, h2, hab⟩)
          · simp only [List.cons_append, List.cons.injEq] at g
            exact absurd g.1.symm h
          · cases p with
            | nil =>
              simp only [List.nil_append, List.cons.injEq] at h1 h2
              omega
            | cons e p =>
              simp only [List.cons_append, List.cons.injEq] at h1 h2
              exact absurd (h1.1.trans h2.1.symm) h

/-- It is a strict total order, as containers with vectors as keys need. -/
theorem C552_order (x y z : List Int) : lt x x = false ∧ (lt x y = true → lt y z = true → lt x z = true) ∧ (lt x y = true ∨ x = y ∨ lt y x = true) := by
  refine ⟨?_, ?_, ?_⟩
  · rw [← Bool.not_eq_true, lt_iff]
    exact lt_irrefl x
  · rw [lt_iff, lt_iff, lt_iff]
    exact lt_trans
  · rw [lt_iff, lt_iff]
    exact lt_trichotomy x y

example : lt [1, 2] [1, 2, 0] = true ∧ lt [1, 2, 9] [1, 3] = true ∧ lt [2] [1, 5] = false := ⟨rfl, rfl, rfl⟩

/-! ## C553: entries of vectors -/

/-- `v(i)` counts from the end for negative `i`, `v.back(i)` from the last entry; both agree. -/
theorem C553_access {α : Type _} (l : List α) (i : Nat) (h : i < l.length) :
    call l i = .ok l[i] ∧ call l (-(i : Int) - 1) = .ok l[l.length - 1 - i] ∧ back l i = .ok l[l.length - 1 - i] := by
  refine ⟨?_, ?_, ?_⟩
  · rw [call, if_neg (by omega), at_ok h]
  · rw [call, if_pos (by omega), show (l.length : Int) + (-(i : Int) - 1) = ((l.length - 1 - i : Nat) : Int) by omega, at_ok]
  · rw [back, show (l.length : Int) - 1 - i = ((l.length - 1 - i : Nat) : Int) by omega, at_ok]

/-- `set_back(i,x)` then `back(j)`. -/
theorem C553_set_back {α : Type _} (l : List α) (i j : Nat) (x : α) (h : i < l.length) (hj : j < l.length) :
    ∃ r, setBack l i x = .ok r ∧ r.length = l.length ∧ if i = j then back r j = .ok x else back r j = back l j := by
  refine ⟨l.set (l.length - 1 - i) x, ?_, by simp, ?_⟩
  · rw [setBack, if_neg (by omega), show ((l.length : Int) - 1 - i).toNat = l.length - 1 - i by omega, gvSet, if_pos (by omega)]
  · have e : ∀ r : List α, r.length = l.length → ∀ hr : l.length - 1 - j < r.length, back r j = .ok r[l.length - 1 - j] := fun r hr _ => by
      rw [back, hr, show (l.length : Int) - 1 - j = ((l.length - 1 - j : Nat) : Int) by omega, at_ok]
    split
    · next g => subst g; rw [e _ (by simp) (by simp; omega)]; simp
    · next g =>
      rw [e _ (by simp) (by simp; omega), e l rfl (by omega), List.getElem_set_ne (by omega)]

/-- `max()` and `min()` are entries, and no entry is larger or smaller. -/
theorem C553_max_min (l : List Int) (h : l ≠ []) : ∃ a b, max l = .ok a ∧ min l = .ok b ∧ a ∈ l ∧ b ∈ l ∧ ∀ x ∈ l, b ≤ x ∧ x ≤ a := by
  have A : ∀ (l : List Int) (a : Int), (∀ x ∈ a :: l, x ≤ l.foldl (fun t x => if t < x then x else t) a) ∧ l.foldl (fun t x => if t < x then x else t) a ∈ a :: l := by
    intro l
    induction l with
    | nil => intro a; simp
    | cons b l ih =>
      intro a
      obtain ⟨h1, h2⟩ := ih (if a < b then b else a)
      rw [List.foldl_cons]
      have h0 := h1 _ List.mem_cons_self
      refine ⟨fun x hx => ?_, ?_⟩
      · rcases List.mem_cons.1 hx with rfl | hx
        · have h3 : x ≤ _ := le_trans (by split <;> omega) h0
          exact h3
        · rcases List.mem_cons.1 hx with rfl | hx
          · have h3 : x ≤ _ := le_trans (by split <;> omega) h0
            exact h3
          · exact h1 x (List.mem_cons_of_mem _ hx)
      · rcases List.mem_cons.1 h2 with g | g
        · rw [g]; split <;> simp
        · exact List.mem_cons_of_mem _ (List.mem_cons_of_mem _ g)
  have B : ∀ (l : List Int) (a : Int), (∀ x ∈ a :: l, l.foldl (fun t x => if x < t then x else t) a ≤ x) ∧ l.foldl (fun t x => if x < t then x else t) a ∈ a :: l := by
    intro l
    induction l with
    | nil => intro a; simp
    | cons b l ih =>
      intro a
      obtain ⟨h1, h2⟩ := ih (if b < a then b else a)
      rw [List.foldl_cons]
      have h0 := h1 _ List.mem_cons_self
      refine ⟨fun x hx => ?_, ?_⟩
      · rcases List.mem_cons.1 hx with rfl | hx
        · have h3 : _ ≤ x := le_trans h0 (by split <;> omega)
          exact h3
        · rcases List.mem_cons.1 hx with rfl | hx
          · have h3 : _ ≤ x := le_trans h0 (by split <;> omega)
            exact h3
          · exact h1 x (List.mem_cons_of_mem _ hx)
      · rcases List.mem_cons.1 h2 with g | g
        · rw [g]; split <;> simp
        · exact List.mem_cons_of_mem _ (List.mem_cons_of_mem _ g)
  cases l with
  | nil => exact absurd rfl h
  | cons a l => exact ⟨_, _, rfl, rfl, (A l a).2, (B l a).2, fun x hx => ⟨(B l a).1 x hx, (A l a).1 x hx⟩⟩

/-- `insert(j,n,x)` puts `n` copies of `x` before entry `j`. -/
theorem C553_insert {α : Type _} (l k : List α) (n : Nat) (x : α) : insertN (l ++ k) l.length n x = .ok (l ++ List.replicate n x ++ k) := by
  rw [insertN, if_neg (by omega), if_neg (by omega), if_pos (by simp)]
  simp

example : call [5, 6, 7] (-1) = .ok 7 ∧ back [5, 6, 7] 2 = .ok 5 ∧ max [3, 9, 2] = .ok 9 ∧ insertN [1, 2] 1 2 0 = .ok [1, 0, 0, 2] := ⟨rfl, rfl, rfl, rfl⟩

/-! ## C554: sizes of convolutions -/

/-- Sizes `x` of an image and `y` of a window, of the same number of axes.  If the window is no larger than the image by more than one, the size along each axis is the number of positions of the
window inside the image. -/
theorem C554_convolve_partial (x y : List Nat) (h : List.Forall₂ (fun a b => 1 ≤ b ∧ b ≤ a + 1) x y) :
    convolve (x.map Int.ofNat) (y.map Int.ofNat) = .ok (List.zipWith (fun a b => (((List.range (a + 1)).filter fun o => decide (o + b ≤ a)).length : Int)) x y) := by
  have hl := h.length_eq
  rw [convolve, decide_eq_true (by simpa using hl), Res.assrt_true, Res.ok_bind]
  have key : ∀ a b : Nat, 1 ≤ b → b ≤ a + 1 → ((List.range (a + 1)).filter fun o => decide (o + b ≤ a)).length = a + 1 - b := by
    intro a b h1 h2
    have : ∀ n, ((List.range n).filter fun o => decide (o + b ≤ a)).length = if n ≤ a + 1 - b then n else a + 1 - b := by
      intro n
      induction n with
      | zero => simp
      | succ n ih =>
        rw [List.range_succ, List.filter_append, List.length_append, ih]
        by_cases g : n + b ≤ a
        · rw [if_pos (by omega), if_pos (by omega)]
          simp [g]
        · simp only [List.filter_cons, decide_eq_false g, List.filter_nil]
          simp only [Bool.false_eq_true, if_false, List.length_nil, Nat.add_zero]
          split <;> split <;> omega
    rw [this, if_neg (by omega)]
  refine congrArg Res.ok ?_
  induction h with
  | nil => rfl
  | cons hab _ ih =>
    simp only [List.map_cons, List.zipWith_cons_cons, key _ _ hab.1 hab.2]
    rw [ih (by simpa using hl)]
    congr 1
    change ((_ : Nat) : Int) - (((_ : Nat) : Int) - 1) = _
    omega

/-- Different numbers of axes throw. -/
theorem C554_throws (x y : List Int) (h : x.length ≠ y.length) : convolve x y = .throw := by
  rw [convolve, decide_eq_false h]; rfl

/-- A window of length 4 has no position in an image of length 2, but the size is -1. -/
theorem C554_convolve_fails : convolve [2] [4] = .ok [-1] := rfl

/-- A 5×5 image and a 3×2 window. -/
example : convolve [5, 5] [3, 2] = .ok [3, 4] := rfl
example : List.Forall₂ (fun a b : Nat => 1 ≤ b ∧ b ≤ a + 1) [5, 5] [3, 2] := by decide

/-! ## C555: hashes of indices -/

/-- Equal indices have equal hashes, and the hash is defined, for every `std::hash<int>`. -/
theorem C555_hash_partial (h : Int → BitVec 64) (x : List Int) (hx : x ≠ []) : ∃ t, hash h x = .ok t := by
  cases x with
  | nil => exact absurd rfl hx
  | cons a l => exact ⟨_, rfl⟩

/-- The hash of the index without entries reads an entry. -/
theorem C555_hash_fails (h : Int → BitVec 64) : hash h (index []) = .ub := rfl

example : hash (fun i => BitVec.ofInt 64 i) [1, 2] = .ok 0#64 := rfl

end GDM

end Cnine
