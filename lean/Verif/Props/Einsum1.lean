import Verif.Lemmas.Einsum1
import Verif.Lemmas.SumOver
import Mathlib.Tactic.IntervalCases

/-! # C23, C24, C25: one-operand einsum -/

namespace Cnine
namespace Einsum

variable {α : Type}

/-! ## C23 -/

theorem splitArrow_some (xs rs : List Char) (h : '>' ∉ xs) : splitArrow (xs ++ '-' :: '>' :: rs) = some (xs, rs) := by
  induction xs with
  | nil => rfl
  | cons c xs ih =>
    simp only [List.mem_cons, not_or] at h
    rw [List.cons_append]
    unfold splitArrow
    split
    · rename_i l e
      simp only [List.cons.injEq] at e
      cases xs with
      | nil => simp at e
      | cons d xs =>
        simp only [List.cons_append, List.cons.injEq] at e
        simp only [List.mem_cons, not_or] at h
        exact absurd e.2.1.symm h.2.1
    · rename_i c' l _ e
      simp only [List.cons.injEq] at e
      obtain ⟨rfl, rfl⟩ := e
      rw [ih h.2]
      rfl
    · rename_i e
      simp at e

theorem splitArrow_sound {s : List Char} {p : List Char × List Char} (h : splitArrow s = some p) :
    s = p.1 ++ '-' :: '>' :: p.2 := by
  induction s generalizing p with
  | nil => simp [splitArrow] at h
  | cons c s ih =>
    unfold splitArrow at h
    split at h
    · rename_i l e
      simp only [Option.some.injEq] at h
      subst h
      simpa using e
    · rename_i c' l _ e
      simp only [List.cons.injEq] at e
      obtain ⟨rfl, rfl⟩ := e
      rw [Option.map_eq_some_iff] at h
      obtain ⟨q, hq, rfl⟩ := h
      rw [ih hq]
      rfl
    · rename_i e
      simp at e

/-- The string is split at the arrow and both sides are analysed. -/
theorem C23_split (xs rs : List Char) (h : '>' ∉ xs) :
    parse1 (xs ++ "->".toList ++ rs) = .ok (form1 xs rs) := by
  have : xs ++ "->".toList ++ rs = xs ++ '-' :: '>' :: rs := by simp
  rw [this]
  unfold parse1
  rw [splitArrow_some xs rs h]

example : parse1 "ijki->ikb".toList = .ok (form1 "ijki".toList "ikb".toList) :=
  C23_split "ijki".toList "ikb".toList (by decide)

/-- A string without an arrow is refused. -/
theorem C23_no_arrow (s : List Char) (h : ∀ a b : List Char, s ≠ a ++ "->".toList ++ b) : parse1 s = .throw := by
  unfold parse1
  cases e : splitArrow s with
  | none => rfl
  | some p =>
    refine absurd ?_ (h p.1 p.2)
    rw [splitArrow_sound e]
    simp

example : parse1 "ij-k".toList = .throw := by decide

/-- One id per position, all below `id_tail`; two positions (of either string) share an id exactly when they
carry the same letter. -/
theorem C23_ids (xs rs : List Char) (hx : '_' ∉ xs) (hr : '_' ∉ rs) :
    (form1 xs rs).xids.length = xs.length ∧ (form1 xs rs).rids.length = rs.length ∧
    (∀ i ∈ (form1 xs rs).xids ++ (form1 xs rs).rids, i < (form1 xs rs).tail) ∧
    ∀ p q, p < xs.length + rs.length → q < xs.length + rs.length →
      (((form1 xs rs).xids ++ (form1 xs rs).rids)[p]? = ((form1 xs rs).xids ++ (form1 xs rs).rids)[q]? ↔
        (xs ++ rs)[p]? = (xs ++ rs)[q]?) := by
  have hf := form1_eq hx hr
  set L := letters rs ++ sumLetters xs rs with hL
  have hxm : ∀ c ∈ xs, c ∈ L := by
    intro c hc
    by_cases h : c ∈ rs
    · simp [hL, mem_letters, h]
    · simp [hL, sumLetters_eq, mem_onlyIn, h, hc]
  have hrm : ∀ c ∈ rs, c ∈ L := fun c hc => by simp [hL, mem_letters, hc]
  have h1 : (form1 xs rs).xids = xs.map L.idxOf := by
    rw [hf]
    show xs.map (idIn L) = _
    apply List.map_congr_left
    intro c hc
    simp [idIn, hxm c hc]
  have h2 : (form1 xs rs).rids = rs.map L.idxOf := by
    rw [hf]
    show rs.map (idIn (letters rs)) = _
    apply List.map_congr_left
    intro c hc
    have hc' := mem_letters.2 hc
    simp [idIn, hc', hL, List.idxOf_append]
  have h3 : (form1 xs rs).tail = L.length := by rw [hf]; rfl
  rw [h1, h2, h3]
  refine ⟨by simp, by simp, ?_, ?_⟩
  · intro i hi
    rw [← List.map_append, List.mem_map] at hi
    obtain ⟨c, hc, rfl⟩ := hi
    rw [List.mem_append] at hc
    exact List.idxOf_lt_length_of_mem (hc.elim (hxm c) (hrm c))
  · intro p q hp hq
    have hm : ∀ c ∈ xs ++ rs, c ∈ L := fun c hc => (List.mem_append.1 hc).elim (hxm c) (hrm c)
    rw [← List.length_append] at hp hq
    rw [← List.map_append, List.getElem?_map, List.getElem?_map, List.getElem?_eq_getElem hp,
      List.getElem?_eq_getElem hq]
    simp only [Option.map_some, Option.some.injEq]
    constructor
    · intro e
      exact (List.idxOf_inj (hm _ (List.getElem_mem hp))).1 e
    · intro e
      rw [e]

/-- The kind of a letter is determined by where it occurs: letters of both strings are transfers (or gathers,
for `S`), letters of the result only are broadcast, letters of the operand only are summed.  Each group
lists all positions of its letter. -/
theorem C23_groups (xs rs : List Char) (hx : '_' ∉ xs) (hr : '_' ∉ rs) :
    (form1 xs rs).transfers = ((common rs xs).filter (· ≠ 'S')).map (fun c => (positions c xs, positions c rs)) ∧
    (form1 xs rs).gathers = ((common rs xs).filter (· = 'S')).map (fun c => (positions c xs, positions c rs)) ∧
    (form1 xs rs).bcasts = (onlyIn rs xs).map (positions · rs) ∧
    (form1 xs rs).sums = (onlyIn xs rs).map (positions · xs) := by
  rw [form1_eq hx hr]
  refine ⟨?_, ?_, rfl, ?_⟩
  · show ((letters rs).filter fun c => decide (c ∈ xs) && decide (c ≠ 'S')).map _ = _
    rw [common, List.filter_filter]
    congr 2
    funext c
    rw [Bool.and_comm]
  · show ((letters rs).filter fun c => decide (c ∈ xs) && decide (c = 'S')).map _ = _
    rw [common, List.filter_filter]
    congr 2
    funext c
    rw [Bool.and_comm]
  · show (sumLetters xs rs).map _ = _
    rw [sumLetters_eq]

theorem filter_split_perm {β : Type _} (p : β → Bool) (l : List β) : (l.filter p ++ l.filter fun a => !p a).Perm l := by
  induction l with
  | nil => simp
  | cons a l ih =>
    cases h : p a with
    | true => simpa [h] using ih
    | false =>
      simp only [List.filter_cons, h, Bool.false_eq_true, if_false, Bool.not_false, if_true]
      exact List.perm_middle.trans (ih.cons a)

/-- Every position of the result is in exactly one transfer, gather or broadcast group; every position of the
operand in exactly one transfer, gather or sum group. -/
theorem C23_partition (xs rs : List Char) (hx : '_' ∉ xs) (hr : '_' ∉ rs) :
    (((form1 xs rs).transfers.map (·.2) ++ (form1 xs rs).gathers.map (·.2) ++ (form1 xs rs).bcasts).flatten).Perm
      (List.range rs.length) ∧
    (((form1 xs rs).transfers.map (·.1) ++ (form1 xs rs).gathers.map (·.1) ++ (form1 xs rs).sums).flatten).Perm
      (List.range xs.length) := by
  obtain ⟨h1, h2, h3, h4⟩ := C23_groups xs rs hx hr
  rw [h1, h2, h3, h4]
  have key : ∀ (A B : List Char) (s : List Char), A.Nodup → B.Nodup → (∀ c ∈ A, c ∉ B) → (∀ c ∈ s, c ∈ A ∨ c ∈ B) →
      (((A.filter (· ≠ 'S')).map (positions · s) ++ (A.filter (· = 'S')).map (positions · s) ++
        B.map (positions · s)).flatten).Perm (List.range s.length) := by
    intro A B s hA hB hd hc
    have e : (A.filter (· ≠ 'S')).map (positions · s) ++ (A.filter (· = 'S')).map (positions · s) ++
        B.map (positions · s) = ((A.filter (· ≠ 'S') ++ A.filter (· = 'S')) ++ B).map (positions · s) := by simp
    have hp : ((A.filter (· ≠ 'S') ++ A.filter (· = 'S')) ++ B).Perm (A ++ B) := by
      apply List.Perm.append_right
      have := filter_split_perm (fun c : Char => decide (c ≠ 'S')) A
      simpa using this
    rw [e, ← List.flatMap_def]
    apply positions_partition
    · rw [hp.nodup_iff, List.nodup_append]
      exact ⟨hA, hB, fun a ha b hb e => hd a ha (e ▸ hb)⟩
    · intro c hcs
      rw [hp.mem_iff, List.mem_append]
      exact hc c hcs
  constructor
  · have := key (common rs xs) (onlyIn rs xs) rs (common_nodup _ _) (onlyIn_nodup _ _)
      (fun c h1 h2 => (mem_onlyIn.1 h2).2 (mem_common.1 h1).2)
      (fun c hc => by
        rw [mem_common, mem_onlyIn]
        tauto)
    simpa only [List.map_map, Function.comp_def] using this
  · have := key (common rs xs) (onlyIn xs rs) xs (common_nodup _ _) (onlyIn_nodup _ _)
      (fun c h1 h2 => (mem_onlyIn.1 h2).2 (mem_common.1 h1).1)
      (fun c hc => by
        rw [mem_common, mem_onlyIn]
        tauto)
    simpa only [List.map_map, Function.comp_def] using this

example : '_' ∉ "ijkiS".toList ∧ '_' ∉ "kSbkb".toList ∧
    (form1 "ijkiS".toList "kSbkb".toList).transfers = [([2], [0, 3])] ∧
    (form1 "ijkiS".toList "kSbkb".toList).gathers = [([4], [1])] ∧
    (form1 "ijkiS".toList "kSbkb".toList).bcasts = [[2, 4]] ∧
    (form1 "ijkiS".toList "kSbkb".toList).sums = [[0, 3], [1]] ∧
    (form1 "ijkiS".toList "kSbkb".toList).xids = [3, 4, 0, 3, 1] := by decide

/-! ## C24 -/

theorem addEinsum1_run [AddCommMonoid α] (xs rs : List Char) (hx : '_' ∉ xs) (hr : '_' ∉ rs)
    (hg : ¬ ('S' ∈ xs ∧ 'S' ∈ rs)) (len : Char → Nat) (r x : View) (hrd : r.dims = rs.map len)
    (hxd : x.dims = xs.map len) (hrw : r.WF) (hxw : x.WF) (hS : (onlyIn xs rs).length ≤ 3)
    (hB : (onlyIn rs xs).length ≤ 3) (hT : (common rs xs).length ≤ 4) (m : Buf α) :
    addEinsum1 (form1 xs rs) r x m =
      run1 { td := ext ((common rs xs).map len), tsx := str ((common rs xs).map (comb · xs x.strides)),
             tsr := str ((common rs xs).map (comb · rs r.strides)), sd := ext ((onlyIn xs rs).map len),
             ss := str ((onlyIn xs rs).map (comb · xs x.strides)),
             bd := ext ((onlyIn rs xs).map len), bs := str ((onlyIn rs xs).map (comb · rs r.strides)) } 0 0 r x m := by
  obtain ⟨h1, h2, h3, h4⟩ := C23_groups xs rs hx hr
  have hnoS : ∀ c ∈ common rs xs, c ≠ 'S' := by
    rintro c hc rfl
    exact hg ⟨(mem_common.1 hc).2, (mem_common.1 hc).1⟩
  have e1 : (common rs xs).filter (· ≠ 'S') = common rs xs :=
    List.filter_eq_self.2 fun c hc => by simpa using hnoS c hc
  have e2 : (common rs xs).filter (· = 'S') = [] :=
    List.filter_eq_nil_iff.2 fun c hc => by simpa using hnoS c hc
  rw [e1] at h1
  rw [e2] at h2
  have hrl : rs.length = r.strides.length := by rw [hrw, hrd, List.length_map]
  have hxl : xs.length = x.strides.length := by rw [hxw, hxd, List.length_map]
  unfold addEinsum1
  rw [h1, h2, h3, h4, fillAxes_eq (onlyIn xs rs) xs len x hxd hxl (fun c h => (mem_onlyIn.1 h).1) 0 (by omega),
    fillAxes_eq (onlyIn rs xs) rs len r hrd hrl (fun c h => (mem_onlyIn.1 h).1) 0 (by omega)]
  simp only [List.length_map, decide_eq_true hS, decide_eq_true hB, decide_eq_true hT, Res.assrt, if_true, Res.ok_bind,
    List.map_nil, List.length_nil, decide_true]
  rw [transfer1_eq (common rs xs) xs rs len x r hrd hxl hrl (fun c h => (mem_common.1 h).1) 0 (by omega), Res.ok_bind]
  simp only [over_zero_one, over_zero_zero]

/-- `add_einsum(r,x)`: for every assignment `ρ` of values to the letters of the result, the element of `r` at
`ρ` gains the sum of `x` over all values of the letters occurring in `x` only; no other cell changes.
Up to four transfer letters, provided the fourth letter of the result has the same stride in `x` and `r`. -/
theorem C24_add_einsum_four_partial [AddCommMonoid α] (xs rs : List Char) (hx : '_' ∉ xs) (hr : '_' ∉ rs)
    (hg : ¬ ('S' ∈ xs ∧ 'S' ∈ rs)) (len : Char → Nat) (r x : View) (hrd : r.dims = rs.map len)
    (hxd : x.dims = xs.map len) (hrw : r.WF) (hxw : x.WF) (hdist : r.Distinct) (hapart : r.Apart x)
    (hS : (onlyIn xs rs).length ≤ 3) (hB : (onlyIn rs xs).length ≤ 3) (hT : (common rs xs).length ≤ 4)
    (h4 : ∀ c, (common rs xs)[3]? = some c → comb c xs x.strides = comb c rs r.strides)
    (m : Buf α) (R X : List Nat → α)
    (hR : ∀ ρ, Fits len rs ρ → r.val m (rs.map ρ) = some (R (rs.map ρ)))
    (hX : ∀ ρ, Fits len xs ρ → x.val m (xs.map ρ) = some (X (xs.map ρ))) :
    ∃ m', addEinsum1 (form1 xs rs) r x m = .ok m' ∧
      (∀ ρ, Fits len rs ρ → r.val m' (rs.map ρ) =
        some (R (rs.map ρ) + sumOver len (fun ρ => X (xs.map ρ)) (onlyIn xs rs) ρ)) ∧
      ∀ c, (∀ ρ, Fits len rs ρ → c ≠ r.cell (rs.map ρ)) → m' c = m c := by
  rw [addEinsum1_run xs rs hx hr hg len r x hrd hxd hrw hxw hS hB hT]
  have hrl : rs.length = r.strides.length := by rw [hrw, hrd, List.length_map]
  have hxl : xs.length = x.strides.length := by rw [hxw, hxd, List.length_map]
  apply run1_spec r x rs xs (common rs xs) (onlyIn xs rs) (onlyIn rs xs) len hrl hxl (distinct_letters hrd hdist)
    (apart_letters hrd hxd hapart) _ _ _ _ hT hS hB h4 m R X hR hX
  · rw [List.nodup_append]
    exact ⟨common_nodup _ _, onlyIn_nodup _ _, fun a ha b hb e => (mem_onlyIn.1 hb).2 (e ▸ (mem_common.1 ha).2)⟩
  · rw [List.nodup_append]
    exact ⟨common_nodup _ _, onlyIn_nodup _ _, fun a ha b hb e => (mem_onlyIn.1 hb).2 (e ▸ (mem_common.1 ha).1)⟩
  · intro c
    rw [List.mem_append, mem_common, mem_onlyIn]
    tauto
  · intro c
    rw [List.mem_append, mem_common, mem_onlyIn]
    tauto

/-- The same with at most three transfer letters, whatever the strides. -/
theorem C24_add_einsum [AddCommMonoid α] (xs rs : List Char) (hx : '_' ∉ xs) (hr : '_' ∉ rs)
    (hg : ¬ ('S' ∈ xs ∧ 'S' ∈ rs)) (len : Char → Nat) (r x : View) (hrd : r.dims = rs.map len)
    (hxd : x.dims = xs.map len) (hrw : r.WF) (hxw : x.WF) (hdist : r.Distinct) (hapart : r.Apart x)
    (hS : (onlyIn xs rs).length ≤ 3) (hB : (onlyIn rs xs).length ≤ 3) (hT : (common rs xs).length ≤ 3)
    (m : Buf α) (R X : List Nat → α)
    (hR : ∀ ρ, Fits len rs ρ → r.val m (rs.map ρ) = some (R (rs.map ρ)))
    (hX : ∀ ρ, Fits len xs ρ → x.val m (xs.map ρ) = some (X (xs.map ρ))) :
    ∃ m', addEinsum1 (form1 xs rs) r x m = .ok m' ∧
      (∀ ρ, Fits len rs ρ → r.val m' (rs.map ρ) =
        some (R (rs.map ρ) + sumOver len (fun ρ => X (xs.map ρ)) (onlyIn xs rs) ρ)) ∧
      ∀ c, (∀ ρ, Fits len rs ρ → c ≠ r.cell (rs.map ρ)) → m' c = m c :=
  C24_add_einsum_four_partial xs rs hx hr hg len r x hrd hxd hrw hxw hdist hapart hS hB (by omega)
    (fun c hc => by
      have := (List.getElem?_eq_some_iff.1 hc).1
      omega) m R X hR hX

/-- "iij->jbi"-like case: a repeated letter, a summed letter and a broadcast letter.  The hypotheses hold. -/
example : '_' ∉ "iijk".toList ∧ '_' ∉ "jbi".toList ∧ ¬ ('S' ∈ "iijk".toList ∧ 'S' ∈ "jbi".toList) ∧
    (⟨0, [2, 2, 2], [4, 2, 1]⟩ : View).dims = "jbi".toList.map (fun _ => 2) ∧
    (⟨8, [2, 2, 2, 2], [8, 4, 2, 1]⟩ : View).dims = "iijk".toList.map (fun _ => 2) ∧
    (⟨0, [2, 2, 2], [4, 2, 1]⟩ : View).WF ∧ (⟨8, [2, 2, 2, 2], [8, 4, 2, 1]⟩ : View).WF ∧
    (⟨0, [2, 2, 2], [4, 2, 1]⟩ : View).Distinct ∧
    (⟨0, [2, 2, 2], [4, 2, 1]⟩ : View).Apart ⟨8, [2, 2, 2, 2], [8, 4, 2, 1]⟩ ∧
    onlyIn "iijk".toList "jbi".toList = ['k'] ∧ onlyIn "jbi".toList "iijk".toList = ['b'] ∧
    common "jbi".toList "iijk".toList = ['j', 'i'] := by
  decide

/-- With too many letters of a kind the call is refused. -/
theorem C24_too_many [AddCommMonoid α] (xs rs : List Char) (hx : '_' ∉ xs) (hr : '_' ∉ rs) (r x : View) (m : Buf α)
    (h : 3 < (onlyIn xs rs).length ∨ 3 < (onlyIn rs xs).length ∨ 4 < ((common rs xs).filter (· ≠ 'S')).length ∨
      ('S' ∈ xs ∧ 'S' ∈ rs)) :
    addEinsum1 (form1 xs rs) r x m = .throw := by
  obtain ⟨h1, h2, h3, h4⟩ := C23_groups xs rs hx hr
  unfold addEinsum1
  rw [h1, h2, h3, h4]
  simp only [List.length_map, Res.assrt]
  by_cases k1 : (onlyIn xs rs).length ≤ 3
  · by_cases k2 : (onlyIn rs xs).length ≤ 3
    · by_cases k3 : ((common rs xs).filter (· ≠ 'S')).length ≤ 4
      · have k4 : 'S' ∈ xs ∧ 'S' ∈ rs := by
          rcases h with h | h | h | h
          · omega
          · omega
          · omega
          · exact h
        have k5 : ((common rs xs).filter (· = 'S')).length ≠ 0 := by
          intro h0
          have := List.length_eq_zero_iff.1 h0
          rw [List.filter_eq_nil_iff] at this
          exact this 'S' (mem_common.2 ⟨k4.2, k4.1⟩) (by simp)
        simp only [k1, k2, k3, k5, decide_true, decide_false, if_true, Res.ok_bind]
        rfl
      · simp only [k1, k2, k3, decide_true, decide_false, if_true, Res.ok_bind]
        rfl
    · simp only [k1, k2, decide_true, decide_false, if_true, Res.ok_bind]
      rfl
  · simp only [k1, decide_false]
    rfl

example : 3 < (onlyIn "ijkl".toList "a".toList).length := by decide

/-- Four transfer letters, "ijkl->lkji" (a transposition) with a 2×1×1×2 operand `1 2 3 4`: element (1,0,0,0) of the
result should be 2, element (0,0,0,1) should be 3; the code leaves 0 at the latter and writes beyond the result. -/
theorem C24_four_transfers_fails :
    ∃ (r x : View) (m m' : Buf Int), r.dims = [2, 1, 1, 2] ∧ x.dims = [2, 1, 1, 2] ∧ r.WF ∧ x.WF ∧ r.Distinct ∧
      r.Apart x ∧ x.val m [1, 0, 0, 0] = some 3 ∧ r.val m [0, 0, 0, 1] = some 0 ∧
      addEinsum1 (form1 "ijkl".toList "lkji".toList) r x m = .ok m' ∧ r.val m' [0, 0, 0, 1] = some 0 ∧
      m 4 = some 0 ∧ m' 4 = some 4 ∧ ∀ ix, InRange ix r.dims → r.cell ix ≠ 4 := by
  refine ⟨⟨0, [2, 1, 1, 2], [2, 2, 2, 1]⟩, ⟨6, [2, 1, 1, 2], [2, 2, 2, 1]⟩, Buf.ofList [0, 0, 0, 0, 0, 0, 1, 2, 3, 4], _, rfl,
    rfl, by decide, by decide, by decide, by decide, by decide, by decide, rfl, by decide, by decide, by decide, ?_⟩
  have : ∀ ix ∈ allIndices [2, 1, 1, 2], (⟨0, [2, 1, 1, 2], [2, 2, 2, 1]⟩ : View).cell ix ≠ 4 := by decide
  exact fun ix h => this ix (mem_allIndices.2 h)

/-- Table of extents of the letters seen so far. -/
def tab {β : Type} [BEq β] [LawfulBEq β] (L D : List β) (len : β → Nat) : List (Option Nat) := L.map fun c => if c ∈ D then some (len c) else none

theorem tab_set {β : Type} [BEq β] [LawfulBEq β] (L D : List β) (len : β → Nat) (c : β) (hL : L.Nodup) (hc : c ∈ L) :
    (tab L D len).set (L.idxOf c) (some (len c)) = tab L (D ++ [c]) len := by
  apply List.ext_getElem?
  intro i
  have hi := List.idxOf_lt_length_of_mem hc
  rw [List.getElem?_set]
  by_cases h : L.idxOf c = i
  · subst h
    rw [if_pos rfl, if_pos (by simpa [tab] using hi), tab, List.getElem?_map, List.getElem?_eq_getElem hi]
    simp
  · rw [if_neg h, tab, tab, List.getElem?_map, List.getElem?_map]
    cases e : L[i]? with
    | none => rfl
    | some d =>
      have : d ≠ c := by
        rintro rfl
        obtain ⟨h', e'⟩ := List.getElem?_eq_some_iff.1 e
        apply h
        rw [← e']
        exact hL.idxOf_getElem i h'
      simp [this]

theorem dimsById_tab {β : Type} [BEq β] [LawfulBEq β] (L : List β) (hL : L.Nodup) (len : β → Nat) (s D : List β) (hs : ∀ c ∈ s, c ∈ L) :
    dimsById (s.map L.idxOf) (s.map len) (tab L D len) = .ok (tab L (D ++ s) len) := by
  induction s generalizing D with
  | nil => simp [dimsById]
  | cons c s ih =>
    have hc := hs c (by simp)
    have hi := List.idxOf_lt_length_of_mem hc
    have ht : (tab L D len)[L.idxOf c]? = some (if c ∈ D then some (len c) else none) := by
      rw [tab, List.getElem?_map, List.getElem?_eq_getElem hi]
      simp
    have hstep : dimsById ((c :: s).map L.idxOf) ((c :: s).map len) (tab L D len) =
        dimsById (s.map L.idxOf) (s.map len) (tab L (D ++ [c]) len) := by
      simp only [List.map_cons, dimsById, ht]
      by_cases h : c ∈ D
      · have : tab L (D ++ [c]) len = tab L D len := by
          unfold tab
          apply List.map_congr_left
          intro d _
          by_cases e : d = c
          · subst e; simp [h]
          · simp [e]
        rw [this, if_pos h]
        simp
      · rw [if_neg h, tab_set L D len c hL hc]
    rw [hstep, ih (D ++ [c]) fun c hc => hs c (by simp [hc])]
    simp

theorem setBcast_tab {β : Type} [BEq β] [LawfulBEq β] (L : List β) (hL : L.Nodup) (len : β → Nat) (s D : List β) (hs : ∀ c ∈ s, c ∈ L) :
    setBcast (s.map L.idxOf) (s.map len) (tab L D len) = tab L (D ++ s) len := by
  induction s generalizing D with
  | nil => simp [setBcast]
  | cons c s ih =>
    simp only [List.map_cons, setBcast]
    rw [tab_set L D len c hL (hs c (by simp)), ih (D ++ [c]) fun c hc => hs c (by simp [hc])]
    simp

theorem form1_lists (xs rs : List Char) (hx : '_' ∉ xs) (hr : '_' ∉ rs) :
    (letters rs ++ onlyIn xs rs).Nodup ∧ (∀ c ∈ xs, c ∈ letters rs ++ onlyIn xs rs) ∧
    (∀ c ∈ rs, c ∈ letters rs ++ onlyIn xs rs) ∧
    (form1 xs rs).xids = xs.map (letters rs ++ onlyIn xs rs).idxOf ∧
    (form1 xs rs).rids = rs.map (letters rs ++ onlyIn xs rs).idxOf ∧
    (form1 xs rs).bcastIds = (onlyIn rs xs).map (letters rs ++ onlyIn xs rs).idxOf ∧
    (form1 xs rs).tail = (letters rs ++ onlyIn xs rs).length := by
  have hf := form1_eq hx hr
  rw [sumLetters_eq] at hf
  have hxm : ∀ c ∈ xs, c ∈ letters rs ++ onlyIn xs rs := by
    intro c hc
    by_cases h : c ∈ rs
    · simp [mem_letters, h]
    · simp [mem_onlyIn, h, hc]
  have hrm : ∀ c ∈ rs, c ∈ letters rs ++ onlyIn xs rs := fun c hc => by simp [mem_letters, hc]
  refine ⟨?_, hxm, hrm, ?_, ?_, ?_, ?_⟩
  · rw [List.nodup_append]
    exact ⟨letters_nodup rs, onlyIn_nodup _ _, fun a ha b hb e => (mem_onlyIn.1 hb).2 (e ▸ mem_letters.1 ha)⟩
  · rw [hf]
    show xs.map (idIn _) = _
    apply List.map_congr_left
    intro c hc
    simp only [idIn, if_pos (hxm c hc)]
  · rw [hf]
    show rs.map (idIn (letters rs)) = _
    apply List.map_congr_left
    intro c hc
    have hc' := mem_letters.2 hc
    simp [idIn, hc', List.idxOf_append]
  · rw [hf]
    show ((letters rs).filter fun c => decide (c ∉ xs)).map _ = _
    apply List.map_congr_left
    intro c hc
    have hc' := (List.mem_filter.1 hc).1
    simp [List.idxOf_append, hc']
  · rw [hf]; rfl

/-- `operator()`: when equal letters of `x` have equal extents and one extent is given per broadcast letter, the
result gets, on each axis, the extent of its letter. -/
theorem C24_result_dims (xs rs : List Char) (hx : '_' ∉ xs) (hr : '_' ∉ rs) (len : Char → Nat) :
    resultDims1 (form1 xs rs) (xs.map len) ((onlyIn rs xs).map len) = .ok (rs.map fun c => some (len c)) := by
  obtain ⟨hnd, hxm, hrm, h1, h2, h3, h4⟩ := form1_lists xs rs hx hr
  unfold resultDims1
  rw [h1, h2, h3, h4]
  generalize letters rs ++ onlyIn xs rs = L at *
  have h0 : List.replicate L.length (none : Option Nat) = tab L [] len := by
    simp [tab, ← List.map_const']
  rw [h0, dimsById_tab L hnd len xs [] hxm]
  simp only [List.length_map, decide_true, Res.assrt, if_true, Res.ok_bind]
  rw [setBcast_tab L hnd len (onlyIn rs xs) ([] ++ xs) fun c hc => hrm c (mem_onlyIn.1 hc).1]
  rw [List.map_map]
  congr 1
  apply List.map_congr_left
  intro c hc
  have hi := List.idxOf_lt_length_of_mem (hrm c hc)
  have hm : c ∈ [] ++ xs ++ onlyIn rs xs := by
    rw [List.mem_append, mem_onlyIn]
    simp only [List.nil_append]
    tauto
  simp only [Function.comp, tab, List.getD_eq_getElem?_getD, List.getElem?_map, List.getElem?_eq_getElem hi]
  rw [Option.map_some, Option.getD_some, List.getElem_idxOf, if_pos hm]

example : resultDims1 (form1 "iijk".toList "jbi".toList) [3, 3, 4, 5] [7] = .ok [some 4, some 7, some 3] := by decide
/-- Different extents on equal letters are refused. -/
example : resultDims1 (form1 "ii".toList "i".toList) [3, 4] [] = .throw := by decide

theorem dimsById_conflict (L : List Char) (hL : L.Nodup) (s : List Char) (ds : List Nat) (hl : ds.length = s.length)
    (hs : ∀ c ∈ s, c ∈ L) (t : List (Option Nat)) (htl : t.length = L.length)
    (h : (∃ p q a b : Nat, s[p]? = s[q]? ∧ ds[p]? = some a ∧ ds[q]? = some b ∧ a ≠ b) ∨
      ∃ (p a b : Nat) (c : Char), s[p]? = some c ∧ t[L.idxOf c]? = some (some b) ∧ ds[p]? = some a ∧ a ≠ b) :
    dimsById (s.map L.idxOf) ds t = .throw := by
  induction s generalizing ds t with
  | nil =>
    have : ds = [] := List.length_eq_zero_iff.1 (by simpa using hl)
    subst this
    rcases h with ⟨p, q, a, b, -, h, -⟩ | ⟨p, a, b, c, h, -⟩ <;> simp at h
  | cons c s ih =>
    cases ds with
    | nil => simp at hl
    | cons d ds =>
      have hl : ds.length = s.length := by simpa using hl
      have hc := hs c (by simp)
      have hs' : ∀ c ∈ s, c ∈ L := fun c hc => hs c (by simp [hc])
      have hi := List.idxOf_lt_length_of_mem hc
      have hti : L.idxOf c < t.length := by omega
      have hself : ∀ e : Char, e ∈ L → L.idxOf e = L.idxOf c → e = c := fun e he hh => (List.idxOf_inj he).1 hh
      simp only [List.map_cons, dimsById]
      cases ht : t[L.idxOf c]? with
      | none => rw [List.getElem?_eq_none_iff] at ht; omega
      | some o =>
        cases o with
        | none =>
          dsimp only
          apply ih ds hl hs' _ (by simpa using htl)
          rcases h with ⟨p, q, a, b, h1, h2, h3, h4⟩ | ⟨p, a, b, e, h1, h2, h3, h4⟩
          · cases p with
            | zero =>
              cases q with
              | zero =>
                simp only [List.getElem?_cons_zero, Option.some.injEq] at h2 h3
                exact absurd (h2.symm.trans h3) h4
              | succ q =>
                simp only [List.getElem?_cons_zero, List.getElem?_cons_succ, Option.some.injEq] at h1 h2 h3
                subst h2
                exact Or.inr ⟨q, b, d, c, h1.symm, by rw [List.getElem?_set]; simp [hti], h3, Ne.symm h4⟩
            | succ p =>
              cases q with
              | zero =>
                simp only [List.getElem?_cons_zero, List.getElem?_cons_succ, Option.some.injEq] at h1 h2 h3
                subst h3
                exact Or.inr ⟨p, a, d, c, h1, by rw [List.getElem?_set]; simp [hti], h2, h4⟩
              | succ q =>
                simp only [List.getElem?_cons_succ] at h1 h2 h3
                exact Or.inl ⟨p, q, a, b, h1, h2, h3, h4⟩
          · cases p with
            | zero =>
              simp only [List.getElem?_cons_zero, Option.some.injEq] at h1
              subst h1
              rw [ht] at h2
              cases h2
            | succ p =>
              simp only [List.getElem?_cons_succ] at h1 h3
              refine Or.inr ⟨p, a, b, e, h1, ?_, h3, h4⟩
              rw [List.getElem?_set]
              split
              · rename_i hh
                rw [← hh, ht] at h2
                cases h2
              · exact h2
        | some k =>
          dsimp only
          by_cases hk : k = d
          · rw [if_pos hk]
            subst hk
            apply ih ds (by simpa using hl) hs' _ htl
            rcases h with ⟨p, q, a, b, h1, h2, h3, h4⟩ | ⟨p, a, b, e, h1, h2, h3, h4⟩
            · cases p with
              | zero =>
                cases q with
                | zero =>
                  simp only [List.getElem?_cons_zero, Option.some.injEq] at h2 h3
                  exact absurd (h2.symm.trans h3) h4
                | succ q =>
                  simp only [List.getElem?_cons_zero, List.getElem?_cons_succ, Option.some.injEq] at h1 h2 h3
                  subst h2
                  exact Or.inr ⟨q, b, k, c, h1.symm, ht, h3, Ne.symm h4⟩
              | succ p =>
                cases q with
                | zero =>
                  simp only [List.getElem?_cons_zero, List.getElem?_cons_succ, Option.some.injEq] at h1 h2 h3
                  subst h3
                  exact Or.inr ⟨p, a, k, c, h1, ht, h2, h4⟩
                | succ q =>
                  simp only [List.getElem?_cons_succ] at h1 h2 h3
                  exact Or.inl ⟨p, q, a, b, h1, h2, h3, h4⟩
            · cases p with
              | zero =>
                simp only [List.getElem?_cons_zero, Option.some.injEq] at h1 h3
                subst h1 h3
                rw [ht] at h2
                simp only [Option.some.injEq] at h2
                exact absurd h2 h4
              | succ p =>
                simp only [List.getElem?_cons_succ] at h1 h3
                exact Or.inr ⟨p, a, b, e, h1, h2, h3, h4⟩
          · rw [if_neg hk]

/-- `operator()` refuses operands whose extents differ on two axes carrying the same letter. -/
theorem C24_result_dims_conflict (xs rs : List Char) (hx : '_' ∉ xs) (hr : '_' ∉ rs) (xdims rdims : List Nat)
    (hl : xdims.length = xs.length) (p q a b : Nat) (h : xs[p]? = xs[q]?) (ha : xdims[p]? = some a)
    (hb : xdims[q]? = some b) (hab : a ≠ b) : resultDims1 (form1 xs rs) xdims rdims = .throw := by
  obtain ⟨hnd, hxm, hrm, h1, h2, h3, h4⟩ := form1_lists xs rs hx hr
  unfold resultDims1
  rw [h1, h2, h3, h4, dimsById_conflict _ hnd xs xdims hl hxm _ (by simp) (Or.inl ⟨p, q, a, b, h, ha, hb, hab⟩)]
  unfold Res.assrt
  split <;> rfl

/-! ## C25 -/

/-- `add_einsum_back(x,r)`: the element of `x` at every assignment gains the sum of `r` over the letters
occurring in the result only.  Missing: gathered letters and four transfer letters, see the `_fails`. -/
theorem C25_back_partial [AddCommMonoid α] (xs rs : List Char) (hx : '_' ∉ xs) (hr : '_' ∉ rs)
    (hg : ¬ ('S' ∈ xs ∧ 'S' ∈ rs)) (len : Char → Nat) (x r : View) (hrd : r.dims = rs.map len)
    (hxd : x.dims = xs.map len) (hrw : r.WF) (hxw : x.WF) (hdist : x.Distinct) (hapart : x.Apart r)
    (hS : (onlyIn xs rs).length ≤ 3) (hB : (onlyIn rs xs).length ≤ 3) (hT : (common rs xs).length ≤ 3)
    (m : Buf α) (R X : List Nat → α)
    (hR : ∀ ρ, Fits len rs ρ → r.val m (rs.map ρ) = some (R (rs.map ρ)))
    (hX : ∀ ρ, Fits len xs ρ → x.val m (xs.map ρ) = some (X (xs.map ρ))) :
    ∃ m', addEinsum1Back (form1 xs rs) x r m = .ok m' ∧
      (∀ ρ, Fits len xs ρ → x.val m' (xs.map ρ) =
        some (X (xs.map ρ) + sumOver len (fun ρ => R (rs.map ρ)) (onlyIn rs xs) ρ)) ∧
      ∀ c, (∀ ρ, Fits len xs ρ → c ≠ x.cell (xs.map ρ)) → m' c = m c := by
  obtain ⟨h1, h2, h3, h4⟩ := C23_groups xs rs hx hr
  have hnoS : ∀ c ∈ common rs xs, c ≠ 'S' := by
    rintro c hc rfl
    exact hg ⟨(mem_common.1 hc).2, (mem_common.1 hc).1⟩
  have e1 : (common rs xs).filter (· ≠ 'S') = common rs xs :=
    List.filter_eq_self.2 fun c hc => by simpa using hnoS c hc
  rw [e1] at h1
  have hrl : rs.length = r.strides.length := by rw [hrw, hrd, List.length_map]
  have hxl : xs.length = x.strides.length := by rw [hxw, hxd, List.length_map]
  have hT4 : (common rs xs).length ≤ 4 := by omega
  have hrun : addEinsum1Back (form1 xs rs) x r m =
      run1 { td := ext ((common rs xs).map len), tsx := str ((common rs xs).map (comb · rs r.strides)),
             tsr := str ((common rs xs).map (comb · xs x.strides)), sd := ext ((onlyIn rs xs).map len),
             ss := str ((onlyIn rs xs).map (comb · rs r.strides)),
             bd := ext ((onlyIn xs rs).map len), bs := str ((onlyIn xs rs).map (comb · xs x.strides)) } 0 0 x r m := by
    unfold addEinsum1Back
    rw [h1, h3, h4, fillAxes_eq (onlyIn xs rs) xs len x hxd hxl (fun c h => (mem_onlyIn.1 h).1) 0 (by omega),
      fillAxes_eq (onlyIn rs xs) rs len r hrd hrl (fun c h => (mem_onlyIn.1 h).1) 0 (by omega)]
    simp only [List.length_map, decide_eq_true hS, decide_eq_true hB, decide_eq_true hT4, Res.assrt, if_true, Res.ok_bind,
      List.map_map, Function.comp_def]
    rw [transfer1_eq (common rs xs) rs xs len r x hxd hrl hxl (fun c h => (mem_common.1 h).2) 0 (by omega), Res.ok_bind]
    simp only [over_zero_one, over_zero_zero]
  rw [hrun]
  apply run1_spec x r xs rs (common rs xs) (onlyIn rs xs) (onlyIn xs rs) len hxl hrl (distinct_letters hxd hdist)
    (apart_letters hxd hrd hapart) _ _ _ _ hT4 hB hS
    (fun c hc => by
      have := (List.getElem?_eq_some_iff.1 hc).1
      omega) m X R hX hR
  · rw [List.nodup_append]
    exact ⟨common_nodup _ _, onlyIn_nodup _ _, fun a ha b hb e => (mem_onlyIn.1 hb).2 (e ▸ (mem_common.1 ha).1)⟩
  · rw [List.nodup_append]
    exact ⟨common_nodup _ _, onlyIn_nodup _ _, fun a ha b hb e => (mem_onlyIn.1 hb).2 (e ▸ (mem_common.1 ha).2)⟩
  · intro c
    rw [List.mem_append, mem_common, mem_onlyIn]
    tauto
  · intro c
    rw [List.mem_append, mem_common, mem_onlyIn]
    tauto

/-- Inner product of two tensors of the same extents. -/
def inner [NonUnitalNonAssocSemiring α] (dims : List Nat) (A B : List Nat → α) : α :=
  ((allIndices dims).map fun ix => A ix * B ix).sum

/-- Forward and backward are transposes of each other: apply the forward pass to `X` with a zero result and the
backward pass to `G` with a zero operand; then `⟨G, forward X⟩ = ⟨X, backward G⟩`.
Missing: gathered letters and four transfer letters. -/
theorem C25_adjoint_partial [CommSemiring α] (xs rs : List Char) (hx : '_' ∉ xs) (hr : '_' ∉ rs)
    (hg : ¬ ('S' ∈ xs ∧ 'S' ∈ rs)) (len : Char → Nat) (x r : View) (hrd : r.dims = rs.map len)
    (hxd : x.dims = xs.map len) (hrw : r.WF) (hxw : x.WF) (hdx : x.Distinct) (hdr : r.Distinct) (hapart : x.Apart r)
    (hS : (onlyIn xs rs).length ≤ 3) (hB : (onlyIn rs xs).length ≤ 3) (hT : (common rs xs).length ≤ 3)
    (m1 m2 : Buf α) (X G : List Nat → α)
    (hX1 : ∀ ix, InRange ix x.dims → x.val m1 ix = some (X ix)) (hR1 : ∀ ix, InRange ix r.dims → r.val m1 ix = some 0)
    (hX2 : ∀ ix, InRange ix x.dims → x.val m2 ix = some 0) (hR2 : ∀ ix, InRange ix r.dims → r.val m2 ix = some (G ix)) :
    ∃ m1' m2' F K, addEinsum1 (form1 xs rs) r x m1 = .ok m1' ∧ addEinsum1Back (form1 xs rs) x r m2 = .ok m2' ∧
      (∀ ix, InRange ix r.dims → r.val m1' ix = some (F ix)) ∧
      (∀ ix, InRange ix x.dims → x.val m2' ix = some (K ix)) ∧ inner r.dims G F = inner x.dims X K := by
  have hapart' : r.Apart x := fun a b ha hb e => hapart b a hb ha e.symm
  obtain ⟨m1', e1, v1, f1⟩ := C24_add_einsum xs rs hx hr hg len r x hrd hxd hrw hxw hdr hapart' hS hB hT m1 (fun _ => 0) X
    (fun ρ h => hR1 _ (by rw [hrd]; exact inRange_map h)) (fun ρ h => hX1 _ (by rw [hxd]; exact inRange_map h))
  obtain ⟨m2', e2, v2, f2⟩ := C25_back_partial xs rs hx hr hg len x r hrd hxd hrw hxw hdx hapart hS hB hT m2 G (fun _ => 0)
    (fun ρ h => hR2 _ (by rw [hrd]; exact inRange_map h)) (fun ρ h => hX2 _ (by rw [hxd]; exact inRange_map h))
  have key : ∀ (v : View) (s : List Char) (hvd : v.dims = s.map len) (hd : v.Distinct) (m m' : Buf α) (val : (Char → Nat) → α)
      (hz : ∀ ix, InRange ix v.dims → v.val m ix = some 0)
      (hv : ∀ ρ, Fits len s ρ → v.val m' (s.map ρ) = some (0 + val ρ))
      (hfr : ∀ c, (∀ ρ, Fits len s ρ → c ≠ v.cell (s.map ρ)) → m' c = m c),
      ∃ F : List Nat → α, (∀ ix, InRange ix v.dims → v.val m' ix = some (F ix)) ∧
        (∀ ρ, Fits len s ρ → F (s.map ρ) = val ρ) ∧
        ∀ ix, InRange ix v.dims → (∀ ρ, Fits len s ρ → ix ≠ s.map ρ) → F ix = 0 := by
    intro v s hvd hd m m' val hz hv hfr
    have hoff : ∀ ix, InRange ix v.dims → (∀ ρ, Fits len s ρ → ix ≠ s.map ρ) → v.val m' ix = some 0 := by
      intro ix hix hn
      rw [← hz ix hix]
      exact hfr _ fun ρ hρ e => hn ρ hρ (hd _ _ hix (by rw [hvd]; exact inRange_map hρ) e)
    refine ⟨fun ix => (v.val m' ix).getD 0, ?_, ?_, ?_⟩
    · intro ix hix
      by_cases h : ∃ ρ, Fits len s ρ ∧ ix = s.map ρ
      · obtain ⟨ρ, hρ, rfl⟩ := h
        simp only [hv ρ hρ, Option.getD_some]
      · simp only [hoff ix hix fun ρ hρ e => h ⟨ρ, hρ, e⟩, Option.getD_some]
    · intro ρ hρ
      simp only [hv ρ hρ, zero_add, Option.getD_some]
    · intro ix hix hn
      simp only [hoff ix hix hn, Option.getD_some]
  obtain ⟨F, hF1, hF2, hF3⟩ := key r rs hrd hdr m1 m1' _ hR1 v1 f1
  obtain ⟨K, hK1, hK2, hK3⟩ := key x xs hxd hdx m2 m2' _ hX2 v2 f2
  refine ⟨m1', m2', F, K, e1, e2, hF1, hK1, ?_⟩
  have fitsOf : ∀ s σ, (∀ c ∈ letters s, σ c < len c) → Fits len s σ := fun s σ h c hc => h c (mem_letters.2 hc)
  -- both sides are the sum over all letters of `G * X`
  have hl : inner r.dims G F = sumOver len (fun σ => G (rs.map σ) * X (xs.map σ)) (letters rs ++ onlyIn xs rs) (fun _ => 0) := by
    unfold inner
    rw [hrd, sum_diag len rs (fun ix => G ix * F ix) (fun _ => 0), sumOver_append]
    · apply sumOver_congr
      intro σ h1 h2
      rw [hF2 σ (fitsOf rs σ h1)]
      apply sumOver_mul_left len (fun ρ => X (xs.map ρ)) (fun ρ => G (rs.map ρ))
      intro τ hτ
      congr 1
      apply List.map_congr_left
      intro c hc
      exact hτ c fun h => (mem_onlyIn.1 h).2 hc
    · intro ix hix hn
      rw [hF3 ix (by rw [hrd]; exact hix) hn, mul_zero]
  have hrr : inner x.dims X K = sumOver len (fun σ => G (rs.map σ) * X (xs.map σ)) (letters xs ++ onlyIn rs xs) (fun _ => 0) := by
    unfold inner
    rw [hxd, sum_diag len xs (fun ix => X ix * K ix) (fun _ => 0), sumOver_append]
    · apply sumOver_congr
      intro σ h1 h2
      rw [hK2 σ (fitsOf xs σ h1), mul_comm]
      apply sumOver_mul_right len (fun ρ => G (rs.map ρ)) (fun ρ => X (xs.map ρ))
      intro τ hτ
      congr 1
      apply List.map_congr_left
      intro c hc
      exact hτ c fun h => (mem_onlyIn.1 h).2 hc
    · intro ix hix hn
      rw [hK3 ix (by rw [hxd]; exact hix) hn, mul_zero]
  rw [hl, hrr]
  apply sumOver_perm
  · rw [List.perm_ext_iff_of_nodup]
    · intro c
      rw [List.mem_append, List.mem_append, mem_letters, mem_letters, mem_onlyIn, mem_onlyIn]
      tauto
    · exact (form1_lists xs rs hx hr).1
    · exact (form1_lists rs xs hr hx).1
  · exact (form1_lists xs rs hx hr).1

example : (⟨8, [2, 2, 2, 2], [8, 4, 2, 1]⟩ : View).Distinct ∧
    (⟨8, [2, 2, 2, 2], [8, 4, 2, 1]⟩ : View).Apart ⟨0, [2, 2, 2], [4, 2, 1]⟩ := by decide

/-- Gathered letters are silently skipped by the backward pass: with "S->S" only the first element of the
gradient arrives. -/
theorem C25_gather_fails :
    ∃ (x r : View) (m m' : Buf Int), x.dims = [2] ∧ r.dims = [2] ∧ x.WF ∧ r.WF ∧ x.Distinct ∧ x.Apart r ∧
      r.val m [1] = some 5 ∧ x.val m [1] = some 0 ∧ addEinsum1Back (form1 ['S'] ['S']) x r m = .ok m' ∧
      x.val m' [1] = some 0 :=
  ⟨⟨0, [2], [1]⟩, ⟨2, [2], [1]⟩, Buf.ofList [0, 0, 4, 5], _, rfl, rfl, by decide, by decide, by decide, by decide,
    by decide, by decide, rfl, by decide⟩

/-- Four transfer letters: the backward pass of "ijkl->lkji" leaves element (0,0,0,1) of the operand at 0 although the
corresponding gradient element is not. -/
theorem C25_four_transfers_fails :
    ∃ (x r : View) (m m' : Buf Int), r.dims = [2, 1, 1, 2] ∧ x.dims = [2, 1, 1, 2] ∧ r.WF ∧ x.WF ∧ x.Distinct ∧
      x.Apart r ∧ r.val m [0, 0, 0, 1] = some 2 ∧ x.val m [1, 0, 0, 0] = some 0 ∧
      addEinsum1Back (form1 "ijkl".toList "lkji".toList) x r m = .ok m' ∧ x.val m' [1, 0, 0, 0] ≠ some 2 :=
  ⟨⟨0, [2, 1, 1, 2], [2, 2, 2, 1]⟩, ⟨6, [2, 1, 1, 2], [2, 2, 2, 1]⟩, Buf.ofList [0, 0, 0, 0, 0, 0, 1, 2, 3, 4], _, rfl,
    rfl, by decide, by decide, by decide, by decide, by decide, by decide, rfl, by decide⟩

end Einsum
end Cnine
