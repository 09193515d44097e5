import Verif.Lemmas.GpuC

/-!
# Lemmas on the weighted sums of rows on the GPU
-/

namespace Cnine

variable {α β : Type}

namespace GpuC

open Gpu

/-- The part of the table for one row of the mask. -/
def blk (p : Int × List (Int × α)) : List (Int ⊕ α) := .inl p.1 :: .inl p.2.length :: p.2.flatMap fun q => [.inl q.1, .inr q.2]

theorem prepare_spec (l : OMap Int (List (Int × α))) : (prepare l).2.length = l.length ∧
    ∀ (b : Nat) (p : Int × List (Int × α)), l[b]? = some p → ∃ h, (prepare l).2[b]? = some h ∧ ∃ pre post, (prepare l).1 = pre ++ blk p ++ post ∧ pre.length = h := by
  induction l using List.reverseRecOn with
  | nil => exact ⟨rfl, fun b p h => by simp at h⟩
  | append_singleton l q ih =>
    have e : prepare (l ++ [q]) = ((prepare l).1 ++ blk q, (prepare l).2 ++ [(prepare l).1.length]) := by
      simp only [prepare, List.foldl_append, List.foldl_cons, List.foldl_nil]
      rfl
    rw [e]
    refine ⟨by simp [ih.1], fun b p hb => ?_⟩
    rcases Nat.lt_trichotomy b l.length with h | h | h
    · rw [List.getElem?_append_left h] at hb
      obtain ⟨s, h1, pre, post, h2, h3⟩ := ih.2 b p hb
      refine ⟨s, ?_, pre, post ++ blk q, ?_, h3⟩
      · dsimp only
        rw [List.getElem?_append_left (by rw [ih.1]; exact h)]
        exact h1
      · dsimp only
        rw [h2, List.append_assoc _ post]
    · subst h
      rw [List.getElem?_concat_length, Option.some.injEq] at hb
      subst hb
      refine ⟨(prepare l).1.length, ?_, (prepare l).1, [], by simp, rfl⟩
      dsimp only
      rw [← ih.1, List.getElem?_concat_length]
    · rw [List.getElem?_eq_none (by simp; omega)] at hb
      cases hb

theorem pairs_get (l : List (Int × α)) (i : Nat) (q : Int × α) (h : l[i]? = some q) :
    (l.flatMap fun q => [(.inl q.1 : Int ⊕ α), .inr q.2])[2 * i]? = some (.inl q.1) ∧ (l.flatMap fun q => [(.inl q.1 : Int ⊕ α), .inr q.2])[2 * i + 1]? = some (.inr q.2) := by
  induction l generalizing i with
  | nil => simp at h
  | cons a l ih =>
    cases i with
    | zero =>
      simp only [List.getElem?_cons_zero, Option.some.injEq] at h
      subst h
      exact ⟨rfl, rfl⟩
    | succ i =>
      rw [List.getElem?_cons_succ] at h
      exact ih i h

/-- What the table holds from the start `h` of row `b`. -/
theorem table_get (l : OMap Int (List (Int × α))) (b : Nat) (p : Int × List (Int × α)) (hb : l[b]? = some p) : ∃ h, (prepare l).2[b]? = some h ∧
    (prepare l).1[h]? = some (.inl p.1) ∧ (prepare l).1[h + 1]? = some (.inl p.2.length) ∧ ∀ i q, p.2[i]? = some q → (prepare l).1[h + 2 + 2 * i]? = some (.inl q.1) ∧
      (prepare l).1[h + 2 + 2 * i + 1]? = some (.inr q.2) := by
  obtain ⟨h, h1, pre, post, h2, rfl⟩ := (prepare_spec l).2 b p hb
  have key : ∀ i v, (blk p)[i]? = some v → (prepare l).1[pre.length + i]? = some v := fun i v hv => by
    have hi := (List.getElem?_eq_some_iff.1 hv).1
    rw [h2, List.getElem?_append_left (by rw [List.length_append]; omega), List.getElem?_append_right (by omega), Nat.add_sub_cancel_left]
    exact hv
  refine ⟨pre.length, h1, key 0 _ rfl, key 1 _ rfl, fun i q hq => ?_⟩
  obtain ⟨g1, g2⟩ := pairs_get p.2 i q hq
  refine ⟨?_, ?_⟩
  · rw [show pre.length + 2 + 2 * i = pre.length + (2 * i + 2) by omega]
    exact key (2 * i + 2) _ g1
  · rw [show pre.length + 2 + 2 * i + 1 = pre.length + (2 * i + 1 + 2) by omega]
    exact key (2 * i + 1 + 2) _ g2

/-- A loop that changes the memory. -/
theorem run_loopM (n : Nat) (f : Nat → β → Thr α β) (M : Nat → Buf α) (g : Nat → β) (hs : ∀ i, i < n → (f i (g i)).run (M i) = .ok (M (i + 1), g (i + 1))) :
    (Thr.loop n (g 0) f).run (M 0) = .ok (M n, g n) := by
  induction n with
  | zero => rfl
  | succ n ih =>
    rw [Thr.loop, Thr.run_bind, ih fun i hi => hs i (by omega), Res.ok_bind]
    exact hs n (by omega)

/-- The number of floats of a row that thread `t` has. -/
def slots (n t : Nat) : Nat := n / 32 + if t < n - n / 32 * 32 then 1 else 0

theorem slot_lt {n t j : Nat} (h : j < slots n t) (ht : t < 32) : j * 32 + t < n := by
  unfold slots at h
  split at h <;> omega

theorem lt_slot {n t p : Nat} (h : p < n) (ht : p % 32 = t) : p / 32 < slots n t := by
  unfold slots
  split <;> omega

theorem each_run {n t : Nat} (s : β) (f : Nat → β → Thr α β) (m : Buf α) : (each (n / 32) (n - n / 32 * 32) t s f).run m = (Thr.loop (slots n t) s f).run m := by
  unfold each slots
  by_cases h : t < n - n / 32 * 32
  · simp only [if_pos h]
    rfl
  · simp only [if_neg h]
    rw [Thr.run_bind]
    cases (Thr.loop (n / 32) s f).run m <;> rfl

theorem each_within {R W : Nat → Prop} {n t : Nat} (s : β) (f : Nat → β → Thr α β) (h : ∀ j, j < slots n t → ∀ b, Within R W (f j b)) :
    Within R W (each (n / 32) (n - n / 32 * 32) t s f) := by
  refine (Within.loop fun i hi b => h i (by unfold slots; omega) b).bind fun b => ?_
  split
  case isTrue h' => exact h _ (by unfold slots; rw [if_pos h']; omega) b
  case isFalse => exact Within.ret _

/-- What a thread of `accumulator_kernel` does. -/
theorem accK_run [Semiring α] {l : OMap Int (List (Int × α))} {b : Nat} {e : Int × List (Int × α)} (hb : l[b]? = some e) (rarr xarr rs xs n t : Nat) (ht : t < 32) (m : Buf α)
    (F : Nat → α) (X : Nat → Nat → α) (he : 0 ≤ e.1) (hq : ∀ q ∈ e.2, 0 ≤ q.1) (hF : ∀ p, p < n → m (rarr + e.1.toNat * rs + p) = some (F p))
    (hX : ∀ q ∈ e.2, ∀ p, p < n → m (xarr + q.1.toNat * xs + p) = some (X q.1.toNat p)) :
    (accK rarr xarr (prepare l).2 (prepare l).1 rs xs n b t).run m =
      .ok (fun c => if rarr + e.1.toNat * rs ≤ c ∧ (c - (rarr + e.1.toNat * rs)) % 32 = t ∧ (c - (rarr + e.1.toNat * rs)) / 32 < slots n t then
        some (F (c - (rarr + e.1.toNat * rs)) + (e.2.map fun q => q.2 * X q.1.toNat (c - (rarr + e.1.toNat * rs))).sum) else m c, ()) := by
  obtain ⟨h, h1, h2, h3, h4⟩ := table_get l b e hb
  have ip : ∀ (arr : Nat) (k : Int) (s : Nat), 0 ≤ k → (ptrAt arr k s : Thr α Nat) = pure (arr + k.toNat * s) := fun arr k s hk => by
    obtain ⟨k, rfl⟩ := Int.eq_ofNat_of_zero_le hk
    have hh : ((arr : Int) + (k : Int) * s) = ((arr + k * s : Nat) : Int) := by push_cast; rfl
    rw [ptrAt, hh, if_neg (by omega)]
    rfl
  have ii : ∀ i k, (prepare l).1[i]? = some (.inl k) → (intAt (prepare l).1 i : Thr α Int) = pure k := fun i k hk => by rw [intAt, hk]
  have iv : ∀ i k, (prepare l).1[i]? = some (.inr k) → (valAt (prepare l).1 i : Thr α α) = pure k := fun i k hk => by rw [valAt, hk]
  simp only [accK, h1, Nat.add_sub_cancel, show h + 2 - 1 = h + 1 from rfl]
  rw [ii _ _ h2, ii _ _ h3, Thr.run_bind, Thr.run_ret, Res.ok_bind, Thr.run_bind, Thr.run_ret, Res.ok_bind, ip _ _ _ he, Thr.run_bind, Thr.run_ret, Res.ok_bind]
  generalize htg : rarr + e.1.toNat * rs = tg at hF ⊢
  dsimp only
  rw [Thr.run_bind, each_run, Thr.run_loop (m := m) _ (fun _ : Nat => (none : Option α)) _ (fun j p => if p % 32 = t ∧ p / 32 < j then some (F p) else none) (by funext p; simp) ?_, Res.ok_bind]
  · dsimp only
    rw [Thr.run_bind, Thr.run_loop (m := m) _ _ _ (fun i p => if p % 32 = t ∧ p / 32 < slots n t then some (F p + ((e.2.take i).map fun q => q.2 * X q.1.toNat p).sum) else none)
      (by funext p; simp) ?_, Res.ok_bind]
    · dsimp only
      rw [each_run]
      have := run_loopM (slots n t) (fun j (_ : Unit) => do
        let u ← slot (fun p => if p % 32 = t ∧ p / 32 < slots n t then some (F p + ((e.2.take ((e.2.length : Int)).toNat).map fun q => q.2 * X q.1.toNat p).sum) else none) (j * 32 + t)
        Thr.wr (tg + (j * 32 + t)) u) (fun j c => if tg ≤ c ∧ (c - tg) % 32 = t ∧ (c - tg) / 32 < j then some (F (c - tg) + (e.2.map fun q => q.2 * X q.1.toNat (c - tg)).sum) else m c)
        (fun _ => ()) (fun j hj => ?_)
      · simp only [Nat.not_lt_zero, and_false, if_false] at this
        exact this
      · have a1 : (j * 32 + t) % 32 = t ∧ (j * 32 + t) / 32 < slots n t := by omega
        rw [slot]
        simp only [if_pos a1, Int.toNat_natCast, List.take_length]
        rw [Thr.run_bind, Thr.run_ret, Res.ok_bind]
        rw [Thr.run_wr (w := F (j * 32 + t)) _ (by
          dsimp only
          rw [if_neg (by omega)]
          exact hF _ (slot_lt hj ht))]
        congr 2
        funext c
        dsimp only
        by_cases hc : c = tg + (j * 32 + t)
        · subst hc
          rw [if_pos rfl, if_pos (by omega), Nat.add_sub_cancel_left]
        · rw [if_neg hc]
          by_cases hc' : tg ≤ c ∧ (c - tg) % 32 = t ∧ (c - tg) / 32 < j
          · rw [if_pos hc', if_pos (by omega)]
          · rw [if_neg hc', if_neg (by omega)]
    · intro i hi
      have hi' : i < e.2.length := by simpa using hi
      have hqi : e.2[i]? = some e.2[i] := List.getElem?_eq_getElem hi'
      obtain ⟨g1, g2⟩ := h4 i _ hqi
      have hm : e.2[i] ∈ e.2 := List.getElem_mem hi'
      rw [ii _ _ g1, Thr.run_bind, Thr.run_ret, Res.ok_bind, ip _ _ _ (hq _ hm), Thr.run_bind, Thr.run_ret, Res.ok_bind, iv _ _ g2, Thr.run_bind, Thr.run_ret, Res.ok_bind, each_run]
      dsimp only
      rw [Thr.run_loop (m := m) _ _ _ (fun j p => if p % 32 = t ∧ p / 32 < slots n t then
        some (F p + ((e.2.take (if p / 32 < j then i + 1 else i)).map fun q => q.2 * X q.1.toNat p).sum) else none) (by funext p; simp) ?_]
      · congr 2
        funext p
        by_cases hp : p % 32 = t ∧ p / 32 < slots n t
        · simp only [if_pos hp, if_pos hp.2]
        · simp only [if_neg hp]
      · intro j hj
        have a1 : (j * 32 + t) % 32 = t ∧ (j * 32 + t) / 32 < slots n t := by omega
        rw [Thr.run_bind, Thr.run_rd (hX _ hm _ (slot_lt hj ht)), Res.ok_bind, slot]
        simp only [if_pos a1]
        rw [Thr.run_bind, Thr.run_ret, Res.ok_bind, Thr.run_ret]
        congr 2
        funext p
        by_cases hp : p = j * 32 + t
        · subst hp
          rw [if_pos rfl, if_pos a1, if_neg (by omega), if_pos (by omega), List.take_add_one, hqi, Option.toList_some, List.map_append, List.sum_append, List.map_cons, List.map_nil,
            List.sum_cons, List.sum_nil, add_zero, add_assoc]
        · rw [if_neg hp]
          by_cases hp' : p % 32 = t ∧ p / 32 < slots n t
          · rw [if_pos hp', if_pos hp']
            have : (p / 32 < j) ↔ (p / 32 < j + 1) := by omega
            simp only [this]
          · rw [if_neg hp', if_neg hp']
  · intro j hj
    rw [Thr.run_bind, Thr.run_rd (hF _ (slot_lt hj ht)), Res.ok_bind, Thr.run_ret]
    congr 2
    funext p
    dsimp only
    by_cases hp : p = j * 32 + t
    · subst hp
      rw [if_pos rfl, if_pos (by omega)]
    · rw [if_neg hp]
      by_cases hp' : p % 32 = t ∧ p / 32 < j
      · rw [if_pos hp', if_pos (by omega)]
      · rw [if_neg hp', if_neg (by omega)]

/-- The cells a thread of `accumulator_kernel` uses. -/
theorem accK_within [Semiring α] {l : OMap Int (List (Int × α))} {b : Nat} {e : Int × List (Int × α)} (hb : l[b]? = some e) (rarr xarr rs xs n t : Nat) (ht : t < 32) (he : 0 ≤ e.1)
    (hq : ∀ q ∈ e.2, 0 ≤ q.1) : Within (fun c => ∃ q ∈ e.2, ∃ p, p < n ∧ c = xarr + q.1.toNat * xs + p) (fun c => ∃ p, p < n ∧ p % 32 = t ∧ c = rarr + e.1.toNat * rs + p)
      (accK rarr xarr (prepare l).2 (prepare l).1 rs xs n b t) := by
  obtain ⟨h, h1, h2, h3, h4⟩ := table_get l b e hb
  have ip : ∀ (arr : Nat) (k : Int) (s : Nat), 0 ≤ k → (ptrAt arr k s : Thr α Nat) = pure (arr + k.toNat * s) := fun arr k s hk => by
    obtain ⟨k, rfl⟩ := Int.eq_ofNat_of_zero_le hk
    have hh : ((arr : Int) + (k : Int) * s) = ((arr + k * s : Nat) : Int) := by push_cast; rfl
    rw [ptrAt, hh, if_neg (by omega)]
    rfl
  have ii : ∀ i k, (prepare l).1[i]? = some (.inl k) → (intAt (prepare l).1 i : Thr α Int) = pure k := fun i k hk => by rw [intAt, hk]
  have iv : ∀ i k, (prepare l).1[i]? = some (.inr k) → (valAt (prepare l).1 i : Thr α α) = pure k := fun i k hk => by rw [valAt, hk]
  have pb : ∀ {γ δ : Type} (v : γ) (f : γ → Thr α δ), (pure v >>= f) = f v := fun v f => rfl
  have ws : ∀ (R W : Nat → Prop) (sh : Nat → Option α) (p : Nat), Within R W (slot sh p) := fun R W sh p => by
    rw [slot]
    split <;> trivial
  simp only [accK, h1, Nat.add_sub_cancel, show h + 2 - 1 = h + 1 from rfl]
  rw [ii _ _ h2, ii _ _ h3, pb, pb, ip _ _ _ he, pb]
  refine (each_within _ _ fun j hj sh => ?_).bind fun sh => (Within.loop fun i hi sh => ?_).bind fun sh => each_within _ _ fun j hj _ => ?_
  · exact (Within.rd (.inr ⟨j * 32 + t, slot_lt hj ht, by omega, rfl⟩)).bind fun v => Within.ret _
  · have hi' : i < e.2.length := by simpa using hi
    have hqi : e.2[i]? = some e.2[i] := List.getElem?_eq_getElem hi'
    obtain ⟨g1, g2⟩ := h4 i _ hqi
    have hm : e.2[i] ∈ e.2 := List.getElem_mem hi'
    rw [ii _ _ g1, pb, ip _ _ _ (hq _ hm), pb, iv _ _ g2, pb]
    refine each_within _ _ fun j hj sh => ?_
    exact (Within.rd (.inl ⟨e.2[i], hm, j * 32 + t, slot_lt hj ht, rfl⟩)).bind fun v => (ws _ _ _ _).bind fun u => Within.ret _
  · exact (ws _ _ _ _).bind fun u => Within.wr ⟨j * 32 + t, slot_lt hj ht, by omega, rfl⟩

end GpuC

end Cnine
