import Verif.Model.SparseTensor
import Verif.Lemmas.Maps
import Verif.Lemmas.UMap

/-!
# C606–C607: sparse tensors
-/

namespace Cnine

namespace SpTen

variable {α : Type}

/-- The value of the last pair of `l` with the index `ix`. -/
def lastOf : List (List Int × α) → List Int → Option α
  | [], _ => none
  | p :: l, ix => (lastOf l ix).or (if p.1 = ix then some p.2 else none)

/-- What the tensor stores at an index. -/
def look (t : SpTen α) (ix : List Int) : Option α := if t.mom then (match ix with | [i, j] => MoM.look t.map2 i j | _ => none) else UMap.find? ix t.map

/-- The states the functions keep. -/
structure Ok (t : SpTen α) : Prop where
  mom : t.mom = (t.dims.length == 2)
  map : UMap.Ok t.map
  map2 : MoM.Ok t.map2
  one : t.mom = true → t.map = []

theorem ok_make (dims : List Nat) : (make dims : SpTen α).Ok := ⟨rfl, UMap.ok_nil, MoM.ok_nil, fun _ => rfl⟩

theorem two {t : SpTen α} (h : t.Ok) (hm : t.mom = true) {ix : List Int} (hi : ix.length = t.dims.length) : ∃ i j, ix = [i, j] := by
  have h2 : t.dims.length = 2 := by have := h.mom; rw [hm] at this; exact beq_iff_eq.1 this.symm
  rw [h2] at hi
  match ix, hi with
  | [i, j], _ => exact ⟨i, j, rfl⟩

theorem set_ok {t : SpTen α} (h : t.Ok) {ix : List Int} (hi : ix.length = t.dims.length) (x : α) :
    ∃ t', t.set ix x = .ok t' ∧ t'.Ok ∧ t'.dims = t.dims ∧ ∀ jx, t'.look jx = if jx = ix then some x else t.look jx := by
  by_cases hm : t.mom = true
  · obtain ⟨i, j, rfl⟩ := two h hm hi
    refine ⟨{ t with map2 := t.map2.set i j x }, by rw [set, if_pos hm]; rfl, ⟨h.mom, h.map, h.map2.set i j x, h.one⟩, rfl, fun jx => ?_⟩
    simp only [look, hm, if_true]
    match jx with
    | [a, b] =>
      simp only [MoM.look_set]
      by_cases e : a = i ∧ b = j
      · rw [if_pos e, if_pos (by rw [e.1, e.2])]
      · rw [if_neg e, if_neg fun k => e (by simpa using k)]
    | [] => rw [if_neg (by simp)]
    | [a] => rw [if_neg (by simp)]
    | a :: b :: c :: r => rw [if_neg (by simp)]
  · refine ⟨{ t with map := UMap.set ix x t.map }, by rw [set, if_neg hm], ⟨h.mom, h.map.set ix x, h.map2, fun k => absurd k hm⟩, rfl, fun jx => ?_⟩
    simp only [look, hm]
    exact UMap.find?_set jx t.map

/-- The tensor after the assignments `l`. -/
def setAll (l : List (List Int × α)) (t : SpTen α) : Res (SpTen α) := Res.forM l t fun t p => t.set p.1 p.2

theorem setAll_ok : ∀ (l : List (List Int × α)) (t : SpTen α), t.Ok → (∀ p ∈ l, p.1.length = t.dims.length) →
    ∃ t', setAll l t = .ok t' ∧ t'.Ok ∧ t'.dims = t.dims ∧ ∀ ix, t'.look ix = (lastOf l ix).or (t.look ix)
  | [], t, h, _ => ⟨t, rfl, h, rfl, fun _ => rfl⟩
  | p :: l, t, h, hl => by
    obtain ⟨t1, a1, a2, a3, a4⟩ := set_ok h (hl p List.mem_cons_self) p.2
    obtain ⟨t2, b1, b2, b3, b4⟩ := setAll_ok l t1 a2 fun q hq => by rw [a3]; exact hl q (List.mem_cons_of_mem _ hq)
    refine ⟨t2, ?_, b2, b3.trans a3, fun ix => ?_⟩
    · rw [setAll, Res.forM_cons, a1, Res.ok_bind]; exact b1
    · rw [b4, a4, lastOf, Option.or_assoc]
      by_cases e : ix = p.1
      · rw [if_pos e, if_pos e.symm]; rfl
      · rw [if_neg e, if_neg (Ne.symm e)]; rfl

theorem forEach_mem {t : SpTen α} (h : t.Ok) (ix : List Int) (x : α) : (ix, x) ∈ t.forEach ↔ t.look ix = some x := by
  unfold forEach look
  by_cases hm : t.mom = true
  · simp only [hm, if_true, List.mem_map, Prod.mk.injEq]
    constructor
    · rintro ⟨⟨i, j, y⟩, he, rfl, rfl⟩
      exact (MoM.mem_forEach h.map2).1 he
    · match ix with
      | [i, j] => exact fun he => ⟨(i, j, x), (MoM.mem_forEach h.map2).2 he, rfl, rfl⟩
      | [] => exact fun he => by simp at he
      | [a] => exact fun he => by simp at he
      | a :: b :: c :: r => exact fun he => by simp at he
  · rw [if_neg hm, if_neg hm]
    exact UMap.mem_iff h.map

theorem forEach_nodup {t : SpTen α} (h : t.Ok) : (t.forEach.map Prod.fst).Nodup := by
  unfold forEach
  by_cases hm : t.mom = true
  · rw [if_pos hm, List.map_map]
    have := MoM.forEach_nodup h.map2
    have e : (Prod.fst ∘ fun e : Int × Int × α => ([e.1, e.2.1], e.2.2)) = (fun p : Int × Int => [p.1, p.2]) ∘ fun e => (e.1, e.2.1) := rfl
    rw [e, ← List.map_map]
    exact this.map fun a b hab => by
      have := List.cons.inj hab
      exact Prod.ext this.1 (List.cons.inj this.2).1
  · rw [if_neg hm]
    exact h.map

theorem nfilled_eq (t : SpTen α) : t.nfilled = t.forEach.length := by
  unfold nfilled forEach
  by_cases hm : t.mom = true
  · rw [if_pos hm, if_pos hm, List.length_map, MoM.size_eq]
  · rw [if_neg hm, if_neg hm]

theorem look_made {dims : List Nat} (ix : List Int) : (make dims : SpTen α).look ix = none := by
  unfold look make
  dsimp only
  split
  · match ix with
    | [i, j] => rfl
    | [] => rfl
    | [a] => rfl
    | a :: b :: c :: r => rfl
  · rfl

/-! ### C606: what a sparse tensor holds after any assignments -/

section

variable {dims : List Nat} {l : List (List Int × α)}

/-- All assignments are carried out, and the traversal visits every index that was assigned exactly once, with the value assigned last. -/
theorem C606_for_each_partial (hl : ∀ p ∈ l, p.1.length = dims.length) :
    ∃ t, setAll l (make dims) = .ok t ∧ (t.forEach.map Prod.fst).Nodup ∧ ∀ ix x, (ix, x) ∈ t.forEach ↔ lastOf l ix = some x := by
  obtain ⟨t, h1, h2, _, h4⟩ := setAll_ok l (make dims) (ok_make dims) hl
  refine ⟨t, h1, forEach_nodup h2, fun ix x => ?_⟩
  rw [forEach_mem h2, h4]
  rw [look_made, Option.or_none]

/-- `nfilled` is the number of different indices that were assigned. -/
theorem C606_nfilled_partial (hl : ∀ p ∈ l, p.1.length = dims.length) :
    ∃ t, setAll l (make dims) = .ok t ∧ t.nfilled = (l.map Prod.fst).dedup.length := by
  obtain ⟨t, h1, h2, h3⟩ := C606_for_each_partial (α := α) hl
  refine ⟨t, h1, ?_⟩
  rw [nfilled_eq, ← List.length_map (f := Prod.fst)]
  refine List.Perm.length_eq ((List.perm_ext_iff_of_nodup h2 (List.nodup_dedup _)).2 fun ix => ?_)
  rw [List.mem_dedup, List.mem_map]
  have key : ∀ l : List (List Int × α), (∃ x, lastOf l ix = some x) ↔ ix ∈ l.map Prod.fst := by
    intro l
    induction l with
    | nil => simp [lastOf]
    | cons p l ih =>
      rw [List.map_cons, List.mem_cons, ← ih]
      cases e : lastOf l ix with
      | some y => simp [lastOf, e]
      | none =>
        by_cases k : p.1 = ix
        · simp [lastOf, e, k]
        · simp [lastOf, e, k, Ne.symm k]
  rw [← key l]
  exact ⟨fun ⟨p, hp, e⟩ => ⟨p.2, by rw [← h3, ← e]; exact hp⟩, fun ⟨x, hx⟩ => ⟨(ix, x), (h3 ix x).2 hx, rfl⟩⟩

/-- `is_filled(ix)` says whether the index was assigned. -/
theorem C606_is_filled_partial (hl : ∀ p ∈ l, p.1.length = dims.length) :
    ∃ t, setAll l (make dims) = .ok t ∧ ∀ ix, ix.length = dims.length → t.isFilled ix = .ok (lastOf l ix).isSome := by
  obtain ⟨t, h1, h2, h3, h4⟩ := setAll_ok l (make dims) (ok_make dims) hl
  refine ⟨t, h1, fun ix hi => ?_⟩
  have e := h4 ix
  rw [look_made, Option.or_none] at e
  rw [← e]
  unfold isFilled look
  by_cases hm : t.mom = true
  · obtain ⟨i, j, rfl⟩ := two h2 hm (hi.trans (congrArg List.length h3.symm))
    rw [if_pos hm, if_pos hm]
    show Res.ok (t.map2.isFilled i j) = Res.ok (MoM.look t.map2 i j).isSome
    unfold MoM.isFilled MoM.look
    cases UMap.find? i t.map2 <;> rfl
  · rw [if_neg hm, if_neg hm]

/-- `operator()(i0,i1)` of a tensor with two axes is the value assigned last, or 0. -/
theorem C606_get2_partial (hd : dims.length = 2) (hl : ∀ p ∈ l, p.1.length = dims.length) (zero : α) :
    ∃ t, setAll l (make dims) = .ok t ∧ ∀ i j, t.get2 zero i j = (lastOf l [i, j]).getD zero ∧ t.isFilled2 i j = (lastOf l [i, j]).isSome := by
  obtain ⟨t, h1, h2, h3, h4⟩ := setAll_ok l (make dims) (ok_make dims) hl
  have hm : t.mom = true := by rw [h2.mom, h3]; exact beq_iff_eq.2 hd
  refine ⟨t, h1, fun i j => ?_⟩
  have e := h4 [i, j]
  rw [look_made, Option.or_none] at e
  rw [← e]
  unfold get2 isFilled2 look
  rw [if_pos hm, if_pos hm, if_pos hm]
  show t.map2.get zero i j = (MoM.look t.map2 i j).getD zero ∧ t.map2.isFilled i j = (MoM.look t.map2 i j).isSome
  unfold MoM.get MoM.isFilled MoM.look
  cases UMap.find? i t.map2 <;> exact ⟨rfl, rfl⟩

/-- `operator()(i0)`, `operator()(i0,i1,i2)` and `operator()(ix)` of a tensor that does not have two axes. -/
theorem C606_get_partial (hd : dims.length ≠ 2) (hl : ∀ p ∈ l, p.1.length = dims.length) (zero : α) :
    ∃ t, setAll l (make dims) = .ok t ∧ (∀ ix, t.get zero ix = (lastOf l ix).getD zero) ∧
      (∀ i, t.get1 zero i = (lastOf l [i]).getD zero ∧ t.isFilled1 i = (lastOf l [i]).isSome) ∧
      ∀ i j k, t.get3 zero i j k = (lastOf l [i, j, k]).getD zero ∧ t.isFilled3 i j k = (lastOf l [i, j, k]).isSome := by
  obtain ⟨t, h1, h2, h3, h4⟩ := setAll_ok l (make dims) (ok_make dims) hl
  have hm : ¬ t.mom = true := by rw [h2.mom, h3]; exact fun k => hd (beq_iff_eq.1 k)
  have e : ∀ ix, UMap.find? ix t.map = lastOf l ix := fun ix => by
    have := h4 ix
    rw [look_made, Option.or_none] at this
    unfold look at this
    rwa [if_neg hm] at this
  exact ⟨t, h1, fun ix => by rw [get, e], fun i => ⟨by rw [get1, e], by rw [isFilled1, e]⟩, fun i j k => ⟨by rw [get3, e], by rw [isFilled3, e]⟩⟩

/-- The functions that take numbers assign like the one that takes an index. -/
theorem C606_set_partial {t : SpTen α} (h : t.Ok) (x : α) : (t.dims.length = 1 → ∀ i, t.set [i] x = .ok (t.set1 i x)) ∧ (t.dims.length = 2 → ∀ i j, t.set [i, j] x = .ok (t.set2 i j x)) ∧
    (t.dims.length = 3 → ∀ i j k, t.set [i, j, k] x = .ok (t.set3 i j k x)) := by
  refine ⟨fun hd i => ?_, fun hd i j => ?_, fun hd i j k => ?_⟩
  · rw [set, if_neg (by rw [h.mom, hd]; decide)]; rfl
  · have hm : t.mom = true := by rw [h.mom, hd]; rfl
    rw [set, if_pos hm, set2, if_pos hm]; rfl
  · rw [set, if_neg (by rw [h.mom, hd]; decide)]; rfl

/-- `operator()(ix)` of a tensor with two axes is always 0, whatever was assigned. -/
theorem C606_get_fails (hd : dims.length = 2) (hl : ∀ p ∈ l, p.1.length = dims.length) (zero : α) :
    ∃ t, setAll l (make dims) = .ok t ∧ ∀ ix, t.get zero ix = zero := by
  obtain ⟨t, h1, h2, h3, h4⟩ := setAll_ok l (make dims) (ok_make dims) hl
  have hm : t.mom = true := by rw [h2.mom, h3]; exact beq_iff_eq.2 hd
  exact ⟨t, h1, fun ix => by rw [get, h2.one hm]; rfl⟩

end

/-- The tensor of legacy/tensor/tests/testSparseTensor.cpp. -/
example : (setAll [([2, 3], (5 : Int)), ([2, 8], 1), ([3, 1], 4), ([2, 3], 7)] (make [10, 10])).bind (fun t => .ok (t.get2 0 2 3, t.get 0 [2, 3], t.nfilled, t.isFilled2 3 1, t.isFilled2 1 3)) =
    .ok (7, 0, 3, true, false) := by decide

example : (setAll [([2, 3, 1], (5 : Int)), ([2, 3, 1], 7)] (make [4, 4, 4])).bind (fun t => .ok (t.get3 0 2 3 1, t.get 0 [2, 3, 1], t.get 0 [0, 3, 1])) = .ok (7, 7, 0) := by decide

/-! ### C607: filling the pairs of a mask -/

theorem set2_ok {t : SpTen α} (h : t.Ok) (hm : t.mom = true) (i j : Int) (x : α) :
    (t.set2 i j x).Ok ∧ (t.set2 i j x).mom = true ∧ ∀ a b, MoM.look (t.set2 i j x).map2 a b = if a = i ∧ b = j then some x else MoM.look t.map2 a b := by
  rw [set2, if_pos hm]
  exact ⟨⟨h.mom, h.map, h.map2.set i j x, h.one⟩, hm, fun a b => MoM.look_set _ _ _ _ _ _⟩

theorem mask_run (num : Nat → α) : ∀ (mask : List (Int × Int)) (t : SpTen α) (c : Nat), t.Ok → t.mom = true → mask.Nodup →
    ∃ t', (mask.foldl (fun (s : SpTen α × Nat) p => (s.1.set2 p.1 p.2 (num s.2), s.2 + 1)) (t, c)).1 = t' ∧ t'.Ok ∧ t'.mom = true ∧
      (∀ k, ∀ hk : k < mask.length, MoM.look t'.map2 mask[k].1 mask[k].2 = some (num (c + k))) ∧ ∀ a b, (a, b) ∉ mask → MoM.look t'.map2 a b = MoM.look t.map2 a b
  | [], t, c, h, hm, _ => ⟨t, rfl, h, hm, fun k hk => absurd hk (Nat.not_lt_zero k), fun _ _ _ => rfl⟩
  | p :: mask, t, c, h, hm, hn => by
    obtain ⟨a1, a2, a3⟩ := set2_ok h hm p.1 p.2 (num c)
    obtain ⟨hp, hn'⟩ := List.nodup_cons.1 hn
    obtain ⟨t', b1, b2, b3, b4, b5⟩ := mask_run num mask _ (c + 1) a1 a2 hn'
    refine ⟨t', b1, b2, b3, fun k hk => ?_, fun a b hab => ?_⟩
    · cases k with
      | zero =>
        have := b5 p.1 p.2 hp
        rw [a3, if_pos ⟨rfl, rfl⟩] at this
        exact this
      | succ k =>
        have := b4 k (Nat.lt_of_succ_lt_succ hk)
        rw [show c + (k + 1) = c + 1 + k by omega]
        exact this
    · rw [b5 a b fun k => hab (List.mem_cons_of_mem _ k), a3, if_neg fun k => hab (by rw [show (a, b) = p from Prod.ext k.1 k.2]; exact List.mem_cons_self)]

/-- The k-th pair of the mask gets the number k, and nothing else is stored. -/
theorem C607_mask (num : Nat → α) (zero : α) {dims : List Nat} (hd : dims.length = 2) (mask : List (Int × Int)) (hn : mask.Nodup) :
    ∃ t, ofMask num dims mask = .ok t ∧ (∀ k, ∀ hk : k < mask.length, t.get2 zero mask[k].1 mask[k].2 = num k) ∧
      (∀ i j, t.isFilled2 i j = true ↔ (i, j) ∈ mask) ∧ t.nfilled = mask.length := by
  obtain ⟨t, h1, h2, h3, h4, h5⟩ := mask_run num mask ⟨[], [], dims, true⟩ 0 ⟨(beq_iff_eq.2 hd).symm, UMap.ok_nil, MoM.ok_nil, fun _ => rfl⟩ rfl hn
  have hf : ∀ i j, t.isFilled2 i j = (MoM.look t.map2 i j).isSome := fun i j => by
    unfold isFilled2
    rw [if_pos h3]
    unfold MoM.isFilled MoM.look
    cases UMap.find? i t.map2 <;> rfl
  have hs : ∀ i j, (MoM.look t.map2 i j).isSome = true ↔ (i, j) ∈ mask := fun i j => by
    constructor
    · intro e
      by_contra k
      rw [h5 i j k] at e
      exact absurd e (by simp [MoM.look, UMap.find?])
    · intro e
      obtain ⟨k, hk, e⟩ := List.getElem_of_mem e
      have := h4 k hk
      rw [e] at this
      rw [this]; rfl
  refine ⟨t, by rw [ofMask, decide_eq_true hd, Res.assrt_true, Res.ok_bind, h1], fun k hk => ?_, fun i j => by rw [hf, hs], ?_⟩
  · have := h4 k hk
    rw [Nat.zero_add] at this
    unfold get2
    rw [if_pos h3]
    unfold MoM.get
    unfold MoM.look at this
    cases e : UMap.find? mask[k].1 t.map2 with
    | none => rw [e] at this; exact absurd this (by simp)
    | some r =>
      rw [e, Option.bind_some] at this
      simp only [this, Option.getD_some]
  · unfold nfilled
    rw [if_pos h3, MoM.size_eq, show t.map2.forEach.length = (t.map2.forEach.map fun e => (e.1, e.2.1)).length by rw [List.length_map]]
    refine List.Perm.length_eq ((List.perm_ext_iff_of_nodup (MoM.forEach_nodup h2.map2) hn).2 fun p => ?_)
    rw [← hs p.1 p.2, List.mem_map]
    constructor
    · rintro ⟨⟨i, j, x⟩, he, rfl⟩
      rw [(MoM.mem_forEach h2.map2).1 he]; rfl
    · intro e
      obtain ⟨x, hx⟩ := Option.isSome_iff_exists.1 e
      exact ⟨(p.1, p.2, x), (MoM.mem_forEach h2.map2).2 hx, rfl⟩

/-- A tensor that does not have two axes is refused. -/
theorem C607_throws (num : Nat → α) {dims : List Nat} (hd : dims.length ≠ 2) (mask : List (Int × Int)) : ofMask num dims mask = .throw := by
  rw [ofMask, decide_eq_false hd]; rfl

example : (ofMask (fun k => (k : Int)) [3, 3] [(0, 2), (1, 0), (1, 2)]).bind (fun t => .ok (t.get2 9 0 2, t.get2 9 1 0, t.get2 9 1 2, t.get2 9 1 1)) = .ok (0, 1, 2, 9) := by decide

end SpTen

end Cnine
