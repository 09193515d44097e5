import Verif.Props.RtensorArrayA4

/-!
# Arrays of tensors of the old backend: copies and sums along an axis
-/

namespace Cnine

variable {α : Type}

open RA

namespace RAA

/-- The cell of an array at an index, a number and an index. -/
theorem Is.flatAxis {X : RAA} {A B D : List Nat} {n : Nat} {f : List Nat → List Nat → α} {m : Buf α} (h : X.Is (A ++ n :: B) D f m) :
    ∃ g, (X.flatT (A ++ n :: B) D).Is (A ++ n :: (B ++ [cells D])) g m ∧
      ∀ ia id, InRange ia (A ++ n :: B) → InRange id D → g (ia ++ [position D id]) = f ia id := by
  obtain ⟨g, h1, h2⟩ := h.flat
  refine ⟨g, ?_, h2⟩
  rwa [List.append_assoc, List.cons_append] at h1

/-- What the two functions that copy have in common. -/
structure Moves (cp : Buf α → Nat → Nat → Nat → Res (Buf α)) (st : Buf α → Nat → Nat → Res (Buf α)) (op : α → α → α) : Prop where
  run : ∀ m src n dst, (∀ i, i < n → ∀ j, j < n → dst + i ≠ src + j) → cp m src n dst = loop n m fun i m => st m (dst + i) (src + i)
  one : ∀ (m : Buf α) d s v w, m d = some v → m s = some w → st m d s = m.write d (op v w)

theorem moves_copy : Moves (α := α) stdCopy copyCell fun _ w => w where
  run := fun m src n dst h => by
    rw [stdCopy, if_neg]
    rintro ⟨h1, h2⟩
    exact h 0 (by omega) (dst - src) (by omega) (by omega)
  one := fun m d s v w _ h => by rw [copyCell, read_ok h, Res.ok_bind]

theorem moves_add (op : α → α → α) : Moves (stdAdd op) (updCell op) op where
  run := fun _ _ _ _ _ => rfl
  one := fun m d s v w h h' => by rw [updCell, read_ok h, Res.ok_bind, read_ok h', Res.ok_bind]

theorem erase_app {A : List Nat} {ia : List Nat} {k : Nat} {ib : List Nat} (h : ia.length = A.length) : (ia ++ k :: ib).eraseIdx A.length = ia ++ ib := by
  rw [← h, List.eraseIdx_append_of_length_le (Nat.le_refl _), Nat.sub_self]; rfl

theorem insert_app (i1 i2 : List Nat) (k : Nat) : (i1 ++ i2).insertIdx i1.length k = i1 ++ k :: i2 := by
  induction i1 with
  | nil => simp
  | cons a l ih => simp [ih]

theorem split_ex {A B ix : List Nat} (h : InRange ix (A ++ B)) : ∃ i1 i2, ix = i1 ++ i2 ∧ InRange i1 A ∧ InRange i2 B :=
  ⟨_, _, (List.take_append_drop A.length ix).symm, (GT.inRange_split h).1, (GT.inRange_split h).2⟩

/-- `broadcast_copy(ix,x)`, `broadcast_add(ix,x)`: every slice along the axis gets `x`. -/
theorem ix_core {cp : Buf α → Nat → Nat → Nat → Res (Buf α)} {st : Buf α → Nat → Nat → Res (Buf α)} {op : α → α → α} (hcp : Moves cp st op)
    {X x : RAA} {A B D : List Nat} {n : Nat} {f g : List Nat → List Nat → α} {m : Buf α} (h : X.Is (A ++ n :: B) D f m) (hx : x.Is (A ++ B) D g m) (hn : X.nbu = x.nbu)
    (h0 : (A ++ n :: B).prod ≠ 0) (ha : ∀ c, X.Owns c → ¬ x.Owns c) :
    ∃ m', broadcastIx cp X A.length x m = .ok m' ∧ X.Becomes (A ++ n :: B) D (fun ia id => op (f ia id) (g (ia.eraseIdx A.length) id)) m m' := by
  obtain ⟨F, f1, f2⟩ := h.flatAxis
  obtain ⟨G, g1, g2⟩ := hx.flat
  have hc := (cells_pos D).1
  have hpr : (A ++ n :: B).prod = A.prod * (n * B.prod) := by rw [List.prod_append, List.prod_cons]
  have hab : (A ++ B).prod = A.prod * B.prod := List.prod_append
  have hA : A.prod ≠ 0 := fun z => h0 (by rw [hpr, z, Nat.zero_mul])
  have hnB : n * B.prod ≠ 0 := fun z => h0 (by rw [hpr, z, Nat.mul_zero])
  have hB : B.prod ≠ 0 := fun z => hnB (by rw [z, Nat.mul_zero])
  have hbp : (B ++ [cells D]).prod = B.prod * cells D := by simp
  -- the three loops
  obtain ⟨m', e1, e2⟩ := take_core f1 (fun jx => op (F jx) (G (jx.eraseIdx A.length)))
    (fun a k i m => st m (X.base.arr + a * ((n * B.prod) * cells D) + k * (B.prod * cells D) + i) (x.base.arr + a * (B.prod * cells D) + i)) (by
      intro ia a1 k hk ib b1 m' hm hv
      rw [hbp] at hv ⊢
      have hlt := position_lt b1
      rw [hbp] at hlt
      have hsrc : m (x.base.arr + position A ia * (B.prod * cells D) + position (B ++ [cells D]) ib) = some (G (ia ++ ib)) := by
        have := g1.has (ia ++ ib) (by rw [List.append_assoc]; exact GT.inRange_app a1 b1)
        rw [List.append_assoc, GT.position_app a1.length, hbp] at this
        rw [Nat.add_assoc]; exact this
      have hno : ¬ X.Owns (x.base.arr + position A ia * (B.prod * cells D) + position (B ++ [cells D]) ib) := fun o => by
        refine ha _ o ?_
        rw [Nat.add_assoc]
        refine hx.owns ?_
        rw [hab, Nat.mul_assoc]
        exact two_lt (position_lt a1) hlt
      have ed : X.base.arr + position A ia * ((n * B.prod) * cells D) + k * (B.prod * cells D) + position (B ++ [cells D]) ib =
          X.base.arr + (position A ia * (n * (B.prod * cells D)) + k * (B.prod * cells D) + position (B ++ [cells D]) ib) := by rw [Nat.mul_assoc n]; omega
      show st m' (X.base.arr + position A ia * ((n * B.prod) * cells D) + k * (B.prod * cells D) + position (B ++ [cells D]) ib) _ = m'.write (X.base.arr + _) _
      rw [ed]
      rw [hcp.one m' (X.base.arr + _) _ _ _ hv (by rw [hm _ fun o => hno ((h.flatOwns _).1 o), hsrc]), erase_app a1.length])
  have hb := h.unflat (g := fun jx => op (F jx) (G (jx.eraseIdx A.length))) (by rw [List.append_assoc, List.cons_append]; exact e2)
  refine ⟨m', ?_, becomes_congr hb fun ia id a b => ?_⟩
  · have hfit : fits X.adims x.adims A.length = true := by
      rw [fits, h.adims, hx.adims]
      simp only [Bool.and_eq_true, decide_eq_true_eq, beq_iff_eq]
      exact ⟨by simp; omega, erase_app rfl⟩
    have hn' : Res.get X.adims A.length = .ok n := by rw [h.adims, Res.get, List.getElem?_append_right (Nat.le_refl _), Nat.sub_self]; rfl
    have d1 : (A ++ n :: B).drop (A.length + 1) = B := by rw [List.drop_append, List.drop_of_length_le (by omega)]; simp
    have d2 : (A ++ n :: B).drop A.length = n :: B := List.drop_left
    have d3 : (A ++ B).drop A.length = B := List.drop_left
    have run : ∀ a, a < A.prod → ∀ k, k < n → ∀ m : Buf α, cp m (x.base.arr + a * (B.prod * cells D)) (B.prod * cells D) (X.base.arr + a * ((n * B.prod) * cells D) + k * (B.prod * cells D)) =
        loop (B ++ [cells D]).prod m fun i m => st m (X.base.arr + a * ((n * B.prod) * cells D) + k * (B.prod * cells D) + i) (x.base.arr + a * (B.prod * cells D) + i) := by
      intro a h1 k h2 m
      rw [hbp]
      apply hcp.run
      intro i hi j hj e
      refine ha (x.base.arr + a * (B.prod * cells D) + j) ?_ ?_
      · rw [← e, show X.base.arr + a * ((n * B.prod) * cells D) + k * (B.prod * cells D) + i = X.base.arr + (a * (n * (B.prod * cells D)) + (k * (B.prod * cells D) + i)) by
          rw [Nat.mul_assoc n]; omega]
        refine h.owns ?_
        rw [hpr, Nat.mul_assoc, Nat.mul_assoc n]
        exact two_lt h1 (two_lt h2 hi)
      · rw [Nat.add_assoc]
        refine hx.owns ?_
        rw [hab, Nat.mul_assoc]
        exact two_lt h1 hj
    rw [broadcastIx, decide_eq_true hn, Res.assrt_true, Res.ok_bind, hfit, Res.assrt_true, Res.ok_bind, hn', Res.ok_bind, ← e1]
    split
    · next z =>
      have zA : A = [] := List.length_eq_zero_iff.1 z
      subst zA
      rw [h.stride (n := 0) (by simp), Res.ok_bind, hx.cst (by rw [hab]; exact Nat.mul_ne_zero hA hB)]
      have r0 := run 0 (by simp)
      simp only [Nat.zero_mul, Nat.add_zero] at r0
      have ep : ((([] : List Nat) ++ n :: B).drop (0 + 1)).prod = B.prod := by simp
      rw [ep]
      rw [show (([] : List Nat) ++ B).prod = B.prod by simp]
      rw [show ([] : List Nat).prod = 0 + 1 from rfl, RA.loop_snoc, show ∀ (s : Buf α) (F : Nat → Buf α → Res (Buf α)), loop 0 s F = .ok s from fun _ _ => rfl, Res.ok_bind]
      apply loop_congr
      intro k hk s
      rw [r0 k hk]
      simp only [Nat.zero_mul, Nat.add_zero]
    · next z =>
      have e4 : A.length - 1 + 1 = A.length := by omega
      rw [h.stride (n := A.length - 1) (by simp; omega), Res.ok_bind, h.stride (n := A.length) (by simp), Res.ok_bind, hx.stride (n := A.length - 1) (by simp; omega), Res.ok_bind,
        e4, d1, d2, d3, List.prod_cons, decide_eq_true (Nat.mul_ne_zero hnB (by omega)), show Res.need true = .ok () from rfl, Res.ok_bind, h.cst h0, hpr, Nat.mul_assoc A.prod,
        Nat.mul_div_cancel _ (Nat.pos_of_ne_zero (Nat.mul_ne_zero hnB (by omega)))]
      apply loop_congr
      intro a h1 s
      apply loop_congr
      intro k h2 s
      exact run a h1 k h2 s
  · have hlen : A.length < ia.length := by rw [a.length]; simp
    show op (F (ia ++ [position D id])) (G ((ia ++ [position D id]).eraseIdx A.length)) = _
    rw [f2 ia id a b, List.eraseIdx_append_of_lt_length hlen, g2 _ id ?_ b]
    obtain ⟨i1, i2, rfl, q1, q2⟩ := split_ex a
    obtain ⟨k, i3, q3, q4, rfl⟩ := List.forall₂_cons_right_iff.1 q2
    rw [erase_app q1.length]
    exact GT.inRange_app q1 q4

theorem C529_broadcastCopy {X x : RAA} {A B D : List Nat} {n : Nat} {f g : List Nat → List Nat → α} {m : Buf α} (h : X.Is (A ++ n :: B) D f m) (hx : x.Is (A ++ B) D g m)
    (hn : X.nbu = x.nbu) (h0 : (A ++ n :: B).prod ≠ 0) (ha : ∀ c, X.Owns c → ¬ x.Owns c) :
    ∃ m', broadcastIx stdCopy X A.length x m = .ok m' ∧ X.Becomes (A ++ n :: B) D (fun ia id => g (ia.eraseIdx A.length) id) m m' :=
  ix_core moves_copy h hx hn h0 ha

theorem C529_broadcastAdd [Add α] {X x : RAA} {A B D : List Nat} {n : Nat} {f g : List Nat → List Nat → α} {m : Buf α} (h : X.Is (A ++ n :: B) D f m) (hx : x.Is (A ++ B) D g m)
    (hn : X.nbu = x.nbu) (h0 : (A ++ n :: B).prod ≠ 0) (ha : ∀ c, X.Owns c → ¬ x.Owns c) :
    ∃ m', broadcastIx (stdAdd (· + ·)) X A.length x m = .ok m' ∧ X.Becomes (A ++ n :: B) D (fun ia id => f ia id + g (ia.eraseIdx A.length) id) m m' :=
  ix_core (moves_add _) h hx hn h0 ha

/-- Along an axis of size 0 that is not the first, the code divides by zero. -/
theorem C529_zero_fails (cp : Buf α → Nat → Nat → Nat → Res (Buf α)) {X x : RAA} {A B D : List Nat} {f g : List Nat → List Nat → α} {m : Buf α} (h : X.Is (A ++ 0 :: B) D f m)
    (hx : x.Is (A ++ B) D g m) (hn : X.nbu = x.nbu) (hA : A ≠ []) : broadcastIx cp X A.length x m = .ub := by
  have hl : 0 < A.length := List.length_pos_iff.2 hA
  have hfit : fits X.adims x.adims A.length = true := by
    rw [fits, h.adims, hx.adims]
    simp only [Bool.and_eq_true, decide_eq_true_eq, beq_iff_eq]
    exact ⟨by simp; omega, erase_app rfl⟩
  have hn' : Res.get X.adims A.length = .ok 0 := by rw [h.adims, Res.get, List.getElem?_append_right (Nat.le_refl _), Nat.sub_self]; rfl
  have d2 : (A ++ 0 :: B).drop A.length = 0 :: B := List.drop_left
  rw [broadcastIx, decide_eq_true hn, Res.assrt_true, Res.ok_bind, hfit, Res.assrt_true, Res.ok_bind, hn', Res.ok_bind, if_neg (by omega),
    h.stride (n := A.length - 1) (by simp; omega), Res.ok_bind, h.stride (n := A.length) (by simp), Res.ok_bind, hx.stride (n := A.length - 1) (by simp; omega), Res.ok_bind,
    show A.length - 1 + 1 = A.length by omega, d2, List.prod_cons]
  simp

/-! ### C530: sums along an axis -/

/-- Adding one block after another. -/
theorem acc_block [AddMonoid α] (m : Buf α) (dst t : Nat) (src : Nat → Nat) (v : Nat → α) (w : Nat → Nat → α) (hv : ∀ i, i < t → m (dst + i) = some (v i)) : ∀ n,
    (∀ k, k < n → ∀ i, i < t → m (src k + i) = some (w k i)) → (∀ k, k < n → ∀ i, i < t → ∀ j, j < t → dst + i ≠ src k + j) →
    ∃ m', (loop n m fun k m => stdAdd (· + ·) m (src k) t dst) = .ok m' ∧ (∀ i, i < t → m' (dst + i) = some (v i + ((List.range n).map fun k => w k i).sum)) ∧
      ∀ c, (∀ i, i < t → c ≠ dst + i) → m' c = m c := by
  intro n
  induction n with
  | zero => intro _ _; exact ⟨m, rfl, fun i hi => by simp [hv i hi], fun _ _ => rfl⟩
  | succ n ih =>
    intro hw ha
    obtain ⟨m1, e1, e2, e3⟩ := ih (fun k hk => hw k (by omega)) fun k hk => ha k (by omega)
    obtain ⟨m2, g1, g2, g3⟩ := stdAdd_ok (· + ·) m1 (src n) t dst _ (w n) e2
      (fun i hi => by rw [e3 _ fun j hj e => ha n (by omega) j hj i hi e.symm]; exact hw n (by omega) i hi)
      (fun i hi j hj e => absurd e (ha n (by omega) i hi j hj))
    refine ⟨m2, by rw [RA.loop_snoc, e1, Res.ok_bind, g1], fun i hi => ?_, fun c hc => by rw [g3 c hc, e3 c hc]⟩
    rw [g2 i hi, List.range_succ, List.map_append, List.sum_append]
    simp [add_assoc]

/-- `add_reduce(x,ix)`: the sums along the axis are added. -/
theorem C530_addReduce [AddMonoid α] {X x : RAA} {A B D : List Nat} {n : Nat} {f g : List Nat → List Nat → α} {m : Buf α} (h : X.Is (A ++ B) D f m) (hx : x.Is (A ++ n :: B) D g m)
    (hn : X.nbu = x.nbu) (h0 : (A ++ n :: B).prod ≠ 0) (ha : ∀ c, X.Owns c → ¬ x.Owns c) :
    ∃ m', addReduce X x A.length m = .ok m' ∧
      X.Becomes (A ++ B) D (fun ia id => f ia id + ((List.range n).map fun k => g (ia.insertIdx A.length k) id).sum) m m' := by
  obtain ⟨F, f1, f2⟩ := h.flat
  obtain ⟨G, g1, g2⟩ := hx.flatAxis
  have hc := (cells_pos D).1
  have hpr : (A ++ n :: B).prod = A.prod * (n * B.prod) := by rw [List.prod_append, List.prod_cons]
  have hab : (A ++ B).prod = A.prod * B.prod := List.prod_append
  have hA : A.prod ≠ 0 := fun z => h0 (by rw [hpr, z, Nat.zero_mul])
  have hnB : n * B.prod ≠ 0 := fun z => h0 (by rw [hpr, z, Nat.mul_zero])
  have hbp : (B ++ [cells D]).prod = B.prod * cells D := by simp
  rw [List.append_assoc] at f1
  have step : ∀ a, a < A.prod → ∀ m' : Buf α, (∀ c, ¬ X.Owns c → m' c = m c) →
      (∀ ix, InRange ix (A ++ (B ++ [cells D])) → position A (ix.take A.length) = a → m' (X.base.arr + position (A ++ (B ++ [cells D])) ix) = some (F ix)) →
      ∃ m'', (loop n m' fun k m => stdAdd (· + ·) m (x.base.arr + a * ((n * B.prod) * cells D) + k * (B.prod * cells D)) (B.prod * cells D) (X.base.arr + a * (B.prod * cells D))) = .ok m'' ∧
        (∀ ix, InRange ix (A ++ (B ++ [cells D])) → position A (ix.take A.length) = a →
          m'' (X.base.arr + position (A ++ (B ++ [cells D])) ix) = some (F ix + ((List.range n).map fun k => G (ix.insertIdx A.length k)).sum)) ∧
        ∀ c, (∀ ix, InRange ix (A ++ (B ++ [cells D])) → position A (ix.take A.length) = a → c ≠ X.base.arr + position (A ++ (B ++ [cells D])) ix) → m'' c = m' c := by
    intro a h1 m' hm hv
    obtain ⟨r1, r2⟩ := nth_range h1
    have ix_of : ∀ i, i < B.prod * cells D → InRange (nth A a ++ nth (B ++ [cells D]) i) (A ++ (B ++ [cells D])) ∧
        position A ((nth A a ++ nth (B ++ [cells D]) i).take A.length) = a ∧ position (A ++ (B ++ [cells D])) (nth A a ++ nth (B ++ [cells D]) i) = a * (B.prod * cells D) + i := by
      intro i hi
      obtain ⟨q1, q2⟩ := nth_range (show i < (B ++ [cells D]).prod by rw [hbp]; exact hi)
      refine ⟨GT.inRange_app r1 q1, ?_, ?_⟩
      · rw [← r1.length, List.take_left, r2]
      · rw [GT.position_app r1.length, r2, q2, hbp]
    obtain ⟨m'', e1, e2, e3⟩ := acc_block m' (X.base.arr + a * (B.prod * cells D)) (B.prod * cells D)
      (fun k => x.base.arr + a * ((n * B.prod) * cells D) + k * (B.prod * cells D)) (fun i => F (nth A a ++ nth (B ++ [cells D]) i))
      (fun k i => G (nth A a ++ k :: nth (B ++ [cells D]) i)) (fun i hi => by
        obtain ⟨q1, q2, q3⟩ := ix_of i hi
        rw [Nat.add_assoc, ← q3]; exact hv _ q1 q2) n
      (fun k hk i hi => by
        obtain ⟨q1, q2⟩ := nth_range (show i < (B ++ [cells D]).prod by rw [hbp]; exact hi)
        have e : x.base.arr + a * ((n * B.prod) * cells D) + k * (B.prod * cells D) + i = x.base.arr + (a * (n * (B.prod * cells D)) + (k * (B.prod * cells D) + i)) := by
          rw [Nat.mul_assoc n]; omega
        rw [e, hm]
        · have := g1.has (nth A a ++ k :: nth (B ++ [cells D]) i) (GT.inRange_app r1 (.cons hk q1))
          rw [GT.position_app r1.length, r2] at this
          simp only [position, q2, hbp, List.prod_cons] at this
          exact this
        · intro o
          refine ha _ o (hx.owns ?_)
          rw [hpr, Nat.mul_assoc, Nat.mul_assoc n]
          exact two_lt h1 (two_lt hk hi))
      (fun k hk i hi j hj e => by
        refine ha (X.base.arr + a * (B.prod * cells D) + i) ?_ ?_
        · rw [Nat.add_assoc]
          refine h.owns ?_
          rw [hab, Nat.mul_assoc]
          exact two_lt h1 hi
        · rw [e]
          have e' : x.base.arr + a * ((n * B.prod) * cells D) + k * (B.prod * cells D) + j = x.base.arr + (a * (n * (B.prod * cells D)) + (k * (B.prod * cells D) + j)) := by
            rw [Nat.mul_assoc n]; omega
          rw [e']
          refine hx.owns ?_
          rw [hpr, Nat.mul_assoc, Nat.mul_assoc n]
          exact two_lt h1 (two_lt hk hj))
    refine ⟨m'', e1, fun ix hi hp => ?_, fun c hc => e3 c fun i hi => ?_⟩
    · obtain ⟨i1, i2, rfl, q1, q2⟩ := split_ex hi
      rw [← q1.length, List.take_left] at hp
      have hlt := position_lt q2
      rw [hbp] at hlt
      have := e2 (position (B ++ [cells D]) i2) hlt
      have en : nth A a = i1 := by rw [← hp, nth_pos q1]
      rw [en, nth_pos q2] at this
      rw [GT.position_app q1.length, hp, hbp, ← Nat.add_assoc, this]
      congr 3
      apply List.map_congr_left
      intro k _
      rw [← q1.length, insert_app]
    · obtain ⟨q1, q2, q3⟩ := ix_of i hi
      rw [Nat.add_assoc, ← q3]
      exact hc _ q1 q2
  obtain ⟨m', e1, e2⟩ := blocks_core f1 (List.range A.prod) List.nodup_range (fun a ix => position A (ix.take A.length) = a)
    (fun ix hi => by
      obtain ⟨i1, i2, rfl, q1, q2⟩ := split_ex hi
      refine ⟨_, List.mem_range.2 ?_, rfl⟩
      rw [← q1.length, List.take_left]
      exact position_lt q1)
    (fun i j ix a b => a.symm.trans b) (fun ix => F ix + ((List.range n).map fun k => G (ix.insertIdx A.length k)).sum)
    (fun m a => loop n m fun k m => stdAdd (· + ·) m (x.base.arr + a * ((n * B.prod) * cells D) + k * (B.prod * cells D)) (B.prod * cells D) (X.base.arr + a * (B.prod * cells D)))
    (fun a ha' m' hm hv => step a (List.mem_range.1 ha') m' (fun c hc => hm c fun o => hc ((h.flatOwns c).1 o)) hv)
  have hb := h.unflat (g := fun ix => F ix + ((List.range n).map fun k => G (ix.insertIdx A.length k)).sum) (by rw [List.append_assoc]; exact e2)
  refine ⟨m', ?_, becomes_congr hb fun ia id a b => ?_⟩
  · have hr : reduces X.adims x.adims A.length = true := by
      rw [reduces, h.adims, hx.adims]
      simp only [Bool.and_eq_true, decide_eq_true_eq, List.all_eq_true, List.mem_range, beq_iff_eq, Bool.or_eq_true]
      refine ⟨⟨.inl (by simp; omega), fun i hi => ?_⟩, fun i hi => ?_⟩
      · rw [List.getElem?_append_left hi, List.getElem?_append_left hi]
      · rcases Nat.lt_or_ge A.length i with q | q
        · right
          rw [List.getElem?_append_right (by omega), List.getElem?_append_right (by omega), show i - A.length = (i - 1 - A.length) + 1 by omega, List.getElem?_cons_succ]
        · exact .inl q
    have hn' : Res.get x.adims A.length = .ok n := by rw [hx.adims, Res.get, List.getElem?_append_right (Nat.le_refl _), Nat.sub_self]; rfl
    have d1 : (A ++ n :: B).drop (A.length + 1) = B := by rw [List.drop_append, List.drop_of_length_le (by omega)]; simp
    have d2 : (A ++ n :: B).drop A.length = n :: B := List.drop_left
    have d3 : (A ++ B).drop A.length = B := List.drop_left
    rw [addReduce, decide_eq_true hn, Res.assrt_true, Res.ok_bind, decide_eq_true (by rw [h.adims, hx.adims]; simp), show Res.need true = .ok () from rfl, Res.ok_bind, hr,
      Res.assrt_true, Res.ok_bind, hn', Res.ok_bind]
    refine Eq.trans ?_ e1
    show _ = loop A.prod m _
    split
    · next z =>
      have zA : A = [] := List.length_eq_zero_iff.1 z
      subst zA
      rw [hx.stride (n := 0) (by simp), Res.ok_bind]
      have ep : ((([] : List Nat) ++ n :: B).drop (0 + 1)).prod = B.prod := by simp
      rw [ep]
      rw [show ([] : List Nat).prod = 0 + 1 from rfl, RA.loop_snoc, show ∀ (s : Buf α) (F : Nat → Buf α → Res (Buf α)), loop 0 s F = .ok s from fun _ _ => rfl, Res.ok_bind]
      simp only [Nat.zero_mul, Nat.add_zero]
    · next z =>
      have e4 : A.length - 1 + 1 = A.length := by omega
      rw [hx.stride (n := A.length - 1) (by simp; omega), Res.ok_bind, hx.stride (n := A.length) (by simp), Res.ok_bind, h.stride (n := A.length - 1) (by simp; omega), Res.ok_bind,
        e4, d1, d2, d3, List.prod_cons, decide_eq_true (Nat.mul_ne_zero hnB (by omega)), show Res.need true = .ok () from rfl, Res.ok_bind, hx.cst h0, hpr, Nat.mul_assoc A.prod,
        Nat.mul_div_cancel _ (Nat.pos_of_ne_zero (Nat.mul_ne_zero hnB (by omega)))]
  · show F _ + _ = _
    obtain ⟨i1, i2, rfl, q1, q2⟩ := split_ex a
    rw [f2 _ id a b]
    congr 2
    apply List.map_congr_left
    intro k hk
    have hin : InRange (i1 ++ k :: i2) (A ++ n :: B) := GT.inRange_app q1 (.cons (List.mem_range.1 hk) q2)
    rw [← q1.length, List.append_assoc, insert_app, insert_app]
    have := g2 _ id hin b
    rw [List.append_assoc] at this
    exact this

example : (match addReduce (α := Int) ⟨⟨128, [2, 3], [32, 1], 64, 64, 64, -1, false⟩, some 1, -1, [2], [3], [1], [1], 2, 3, 32⟩ ex 0 (fun c => if c < 192 then some (c : Int) else none),
      addReduce (α := Int) ⟨⟨128, [2, 3], [32, 1], 64, 64, 64, -1, false⟩, some 1, -1, [2], [3], [1], [1], 2, 3, 32⟩ ex 1 (fun c => if c < 192 then some (c : Int) else none) with
    | .ok m', .ok m'' => (m' 128 == some (128 + (0 + 64)) && m' 161 == some (161 + (33 + 97)) && m'' 128 == some (128 + (0 + 32)) && m'' 161 == some (161 + (65 + 97)))
    | _, _ => false) = true := by decide +kernel

example : (match broadcastIx stdCopy ex 1 ⟨⟨128, [2, 3], [32, 1], 64, 64, 64, -1, false⟩, some 1, -1, [2], [3], [1], [1], 2, 3, 32⟩ (fun c => if c < 192 then some (c : Int) else none) with
    | .ok m' => (m' 0 == some 128 && m' 33 == some 129 && m' 65 == some 161 && m' 97 == some 161)
    | _ => false) = true := by decide +kernel

end RAA

end Cnine
