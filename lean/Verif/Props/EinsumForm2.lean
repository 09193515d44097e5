import Verif.Lemmas.EinsumForm2
import Verif.Props.Einsum1

/-! # C26: analysis of two-operand einsum strings -/

namespace Cnine
namespace Einsum

theorem splitComma_some (xs l : List Char) (h : ',' ∉ xs) : splitComma (xs ++ ',' :: l) = some (xs, l) := by
  induction xs with
  | nil => rfl
  | cons c xs ih =>
    simp only [List.mem_cons, not_or] at h
    rw [List.cons_append, splitComma, if_neg (Ne.symm h.1), ih h.2]
    rfl

theorem splitComma_sound {s : List Char} {p : List Char × List Char} (h : splitComma s = some p) :
    s = p.1 ++ ',' :: p.2 := by
  induction s generalizing p with
  | nil => simp [splitComma] at h
  | cons c s ih =>
    unfold splitComma at h
    split at h
    · rename_i e
      simp only [Option.some.injEq] at h
      subst h
      simp [e]
    · rw [Option.map_eq_some_iff] at h
      obtain ⟨q, hq, rfl⟩ := h
      rw [ih hq]
      rfl

/-- The string is split at the first comma and at the arrow, and the three parts are analysed. -/
theorem C26_split (xs ys rs : List Char) (hc : ',' ∉ xs) (hx : '>' ∉ xs) (hy : '>' ∉ ys) :
    parse2 (xs ++ ",".toList ++ ys ++ "->".toList ++ rs) = .ok (form2 xs ys rs) := by
  have : xs ++ ",".toList ++ ys ++ "->".toList ++ rs = (xs ++ ',' :: ys) ++ '-' :: '>' :: rs := by simp
  rw [this]
  unfold parse2
  rw [splitArrow_some _ rs (by simp [hx, hy])]
  dsimp only
  rw [splitComma_some xs ys hc]

example : parse2 "ij,jkU->ikU".toList = .ok (form2 "ij".toList "jkU".toList "ikU".toList) :=
  C26_split "ij".toList "jkU".toList "ikU".toList (by decide) (by decide) (by decide)

/-- A string that is not of this form is refused. -/
theorem C26_malformed (s : List Char)
    (h : ∀ a b c : List Char, s ≠ a ++ ",".toList ++ b ++ "->".toList ++ c) : parse2 s = .throw := by
  unfold parse2
  cases e : splitArrow s with
  | none => rfl
  | some p =>
    obtain ⟨pre, rs⟩ := p
    dsimp only
    cases e' : splitComma pre with
    | none => rfl
    | some q =>
      refine absurd ?_ (h q.1 q.2 rs)
      rw [splitArrow_sound e, splitComma_sound e']
      simp

example : parse2 "ij->i,j".toList = .throw := by decide
example : parse2 "ij,jk".toList = .throw := by decide

/-- The kind of a letter is determined by where it occurs, and each group lists all positions of its letter in
each string. -/
theorem C26_groups (xs ys rs : List Char) (hx : '_' ∉ xs) (hy : '_' ∉ ys) (hr : '_' ∉ rs) :
    let f := form2 xs ys rs
    let px := fun c => positions c xs
    let py := fun c => positions c ys
    let pr := fun c => positions c rs
    f.xsums = (inNone xs rs ys).map px ∧ f.ysums = (inNone ys rs xs).map py ∧
    f.bcasts = (inNone rs xs ys).map pr ∧
    f.xr = ((inFirst rs xs ys).filter (· ≠ 'S')).map (fun c => (px c, pr c)) ∧
    f.xrg = ((inFirst rs xs ys).filter (· = 'S')).map (fun c => (px c, pr c)) ∧
    f.yr = ((inFirst rs ys xs).filter (· ≠ 'S')).map (fun c => (py c, pr c)) ∧
    f.yrg = ((inFirst rs ys xs).filter (· = 'S')).map (fun c => (py c, pr c)) ∧
    f.xy = (inFirst xs ys rs).map (fun c => (px c, py c)) ∧
    f.conv = ((inAll rs xs ys).filter (· ∈ ['U', 'V', 'W'])).map (fun c => (px c, py c, pr c)) ∧
    f.triple = ((inAll rs xs ys).filter (· = '*')).map (fun c => (px c, py c, pr c)) ∧
    f.transfers = ((inAll rs xs ys).filter (· ∉ ['U', 'V', 'W', '*'])).map (fun c => (px c, py c, pr c)) := by
  dsimp only
  rw [form2_eq hx hy hr]
  have hconv : ∀ c, isConv c = decide (c ∈ ['U', 'V', 'W']) := by
    intro c
    rw [Bool.eq_iff_iff]
    simp [isConv, or_assoc]
  dsimp only [K2]
  refine ⟨?_, ?_, ?_, ?_, ?_, ?_, ?_, ?_, ?_, ?_, ?_⟩
  · rw [order_filter_x xs ys rs _ (by simp only [Bool.and_eq_true, decide_eq_true_eq]; tauto), inNone]
    congr 1
    apply List.filter_congr
    intro c hc
    simp [mem_letters.1 hc]
  · rw [order_filter_y xs ys rs _ (by simp only [Bool.and_eq_true, decide_eq_true_eq]; tauto), inNone]
    congr 1
    apply List.filter_congr
    intro c hc
    simp [mem_letters.1 hc]
  · rw [order_filter_r xs ys rs _ (by simp only [Bool.and_eq_true, decide_eq_true_eq]; tauto), inNone]
    congr 1
    apply List.filter_congr
    intro c hc
    simp [mem_letters.1 hc]
  · rw [order_filter_r xs ys rs _ (by simp only [Bool.and_eq_true, decide_eq_true_eq]; tauto), inFirst, List.filter_filter]
    congr 1
    apply List.filter_congr
    intro c hc
    rw [Bool.eq_iff_iff]
    simp only [mem_letters.1 hc, Bool.and_eq_true, decide_eq_true_eq]
    tauto
  · rw [order_filter_r xs ys rs _ (by simp only [Bool.and_eq_true, decide_eq_true_eq]; tauto), inFirst, List.filter_filter]
    congr 1
    apply List.filter_congr
    intro c hc
    rw [Bool.eq_iff_iff]
    simp only [mem_letters.1 hc, Bool.and_eq_true, decide_eq_true_eq]
    tauto
  · rw [order_filter_r xs ys rs _ (by simp only [Bool.and_eq_true, decide_eq_true_eq]; tauto), inFirst, List.filter_filter]
    congr 1
    apply List.filter_congr
    intro c hc
    rw [Bool.eq_iff_iff]
    simp only [mem_letters.1 hc, Bool.and_eq_true, decide_eq_true_eq]
    tauto
  · rw [order_filter_r xs ys rs _ (by simp only [Bool.and_eq_true, decide_eq_true_eq]; tauto), inFirst, List.filter_filter]
    congr 1
    apply List.filter_congr
    intro c hc
    rw [Bool.eq_iff_iff]
    simp only [mem_letters.1 hc, Bool.and_eq_true, decide_eq_true_eq]
    tauto
  · rw [order_filter_x xs ys rs _ (by simp only [Bool.and_eq_true, decide_eq_true_eq]; tauto), inFirst]
    congr 1
    apply List.filter_congr
    intro c hc
    rw [Bool.eq_iff_iff]
    simp only [mem_letters.1 hc, Bool.and_eq_true, decide_eq_true_eq]
    tauto
  · rw [order_filter_r xs ys rs _ (by simp only [Bool.and_eq_true, decide_eq_true_eq]; tauto), inAll, List.filter_filter]
    congr 1
    apply List.filter_congr
    intro c hc
    rw [hconv, Bool.eq_iff_iff]
    simp only [mem_letters.1 hc, Bool.and_eq_true, decide_eq_true_eq]
    tauto
  · rw [order_filter_r xs ys rs _ (by simp only [Bool.and_eq_true, decide_eq_true_eq]; tauto), inAll, List.filter_filter]
    congr 1
    apply List.filter_congr
    intro c hc
    rw [Bool.eq_iff_iff]
    simp only [mem_letters.1 hc, Bool.and_eq_true, decide_eq_true_eq]
    tauto
  · rw [order_filter_r xs ys rs _ (by simp only [Bool.and_eq_true, decide_eq_true_eq]; tauto), inAll, List.filter_filter]
    congr 1
    apply List.filter_congr
    intro c hc
    rw [hconv, Bool.eq_iff_iff]
    simp only [mem_letters.1 hc, Bool.and_eq_true, decide_eq_true_eq, Bool.not_eq_true', decide_eq_false_iff_not,
      List.mem_cons, List.not_mem_nil, or_false]
    tauto

theorem form2_lists (xs ys rs : List Char) (hx : '_' ∉ xs) (hy : '_' ∉ ys) (hr : '_' ∉ rs) :
    let S := slots xs ys rs (order xs ys rs)
    S.Nodup ∧ (∀ c ∈ xs, (c, false) ∈ S) ∧ (∀ c ∈ rs, (c, false) ∈ S) ∧ (∀ c ∈ ys, (c, convLetter xs ys rs c) ∈ S) ∧
    (form2 xs ys rs).xids = (xs.map fun c => (c, false)).map S.idxOf ∧
    (form2 xs ys rs).yids = (ys.map fun c => (c, convLetter xs ys rs c)).map S.idxOf ∧
    (form2 xs ys rs).rids = (rs.map fun c => (c, false)).map S.idxOf ∧
    (form2 xs ys rs).bcastIds = ((inNone rs xs ys).map fun c => (c, false)).map S.idxOf ∧
    (form2 xs ys rs).tail = S.length := by
  dsimp only
  rw [form2_eq hx hy hr]
  have h1 : ∀ c ∈ xs, (c, false) ∈ slots xs ys rs (order xs ys rs) := fun c hc =>
    mem_slots.2 ⟨mem_order.2 (by simp [hc]), by simp⟩
  have h2 : ∀ c ∈ rs, (c, false) ∈ slots xs ys rs (order xs ys rs) := fun c hc =>
    mem_slots.2 ⟨mem_order.2 (by simp [hc]), by simp⟩
  have h3 : ∀ c ∈ ys, (c, convLetter xs ys rs c) ∈ slots xs ys rs (order xs ys rs) := fun c hc =>
    mem_slots.2 ⟨mem_order.2 (by simp [hc]), by simp⟩
  have key : ∀ (s : List Char) (g : Char → Char × Bool), (∀ c ∈ s, g c ∈ slots xs ys rs (order xs ys rs)) →
      (s.map fun c => idK (slots xs ys rs (order xs ys rs)) (g c)) =
        (s.map g).map (slots xs ys rs (order xs ys rs)).idxOf := by
    intro s g h
    rw [List.map_map]
    apply List.map_congr_left
    intro c hc
    simp [idK, h c hc]
  refine ⟨slots_nodup (order_nodup _ _ _), h1, h2, h3, key xs _ h1, key ys _ h3, key rs _ h2, ?_, rfl⟩
  dsimp only [K2]
  rw [order_filter_r xs ys rs _ (by simp only [Bool.and_eq_true, decide_eq_true_eq]; tauto)]
  have e : ((letters rs).filter fun c => decide (c ∈ rs) && decide (c ∉ xs) && decide (c ∉ ys)) = inNone rs xs ys := by
    unfold inNone
    apply List.filter_congr
    intro c hc
    simp [mem_letters.1 hc]
  rw [e]
  exact key _ _ fun c hc => h2 c (mem_inNone.1 hc).1

/-- What an id stands for: a letter of x or r, or a letter of y; the two are the same thing unless the letter is
a convolution letter. -/
def label (xs ys rs : List Char) : List (Char × Bool) :=
  let cv := fun c => decide (c ∈ ['U', 'V', 'W'] ∧ c ∈ xs ∧ c ∈ ys ∧ c ∈ rs)
  (xs.map fun c => (c, false)) ++ (ys.map fun c => (c, cv c)) ++ rs.map fun c => (c, false)

/-- One id per position, all below `id_tail`; two positions (of any of the three strings) share an id exactly when
they carry the same letter, except that a convolution letter has one id in y and another one in x and r. -/
theorem C26_ids (xs ys rs : List Char) (hx : '_' ∉ xs) (hy : '_' ∉ ys) (hr : '_' ∉ rs) :
    let f := form2 xs ys rs
    let ids := f.xids ++ f.yids ++ f.rids
    f.xids.length = xs.length ∧ f.yids.length = ys.length ∧ f.rids.length = rs.length ∧
    (∀ i ∈ ids, i < f.tail) ∧
    ∀ p q, p < (label xs ys rs).length → q < (label xs ys rs).length →
      (ids[p]? = ids[q]? ↔ (label xs ys rs)[p]? = (label xs ys rs)[q]?) := by
  obtain ⟨_, h1, h2, h3, e1, e2, e3, -, e4⟩ := form2_lists xs ys rs hx hy hr
  dsimp only
  generalize slots xs ys rs (order xs ys rs) = S at *
  have hcv : ∀ c, convLetter xs ys rs c = decide (c ∈ ['U', 'V', 'W'] ∧ c ∈ xs ∧ c ∈ ys ∧ c ∈ rs) := by
    intro c
    rw [Bool.eq_iff_iff]
    simp only [convLetter, isConv, Bool.and_eq_true, Bool.or_eq_true, beq_iff_eq, decide_eq_true_eq, List.mem_cons,
      List.not_mem_nil, or_false]
    tauto
  have hlab : label xs ys rs = (xs.map fun c => (c, false)) ++ (ys.map fun c => (c, convLetter xs ys rs c)) ++
      rs.map fun c => (c, false) := by simp only [label, hcv]
  have hm : ∀ k ∈ label xs ys rs, k ∈ S := by
    intro k hk
    rw [hlab] at hk
    simp only [List.mem_append, List.mem_map] at hk
    rcases hk with (⟨c, hc, rfl⟩ | ⟨c, hc, rfl⟩) | ⟨c, hc, rfl⟩
    · exact h1 c hc
    · exact h3 c hc
    · exact h2 c hc
  have hids : (form2 xs ys rs).xids ++ (form2 xs ys rs).yids ++ (form2 xs ys rs).rids =
      (label xs ys rs).map S.idxOf := by
    rw [e1, e2, e3, hlab]; simp only [List.map_append]
  refine ⟨by simp [e1], by simp [e2], by simp [e3], ?_, ?_⟩
  · rw [hids, e4]
    intro i hi
    obtain ⟨k, hk, rfl⟩ := List.mem_map.1 hi
    exact List.idxOf_lt_length_of_mem (hm k hk)
  · intro p q hp hq
    rw [hids, List.getElem?_map, List.getElem?_map, List.getElem?_eq_getElem hp, List.getElem?_eq_getElem hq]
    simp only [Option.map_some, Option.some.injEq]
    constructor
    · intro e
      exact (List.idxOf_inj (hm _ (List.getElem_mem hp))).1 e
    · intro e
      rw [e]

theorem split_special (A : List Char) : (A.filter (· ∈ ['U', 'V', 'W']) ++ A.filter (· = '*') ++
    A.filter (· ∉ ['U', 'V', 'W', '*'])).Perm A := by
  have h1 := filter_split_perm (fun c : Char => decide (c ∈ ['U', 'V', 'W'])) A
  have h2 := filter_split_perm (fun c : Char => decide (c = '*')) (A.filter fun c => !decide (c ∈ ['U', 'V', 'W']))
  rw [List.filter_filter, List.filter_filter] at h2
  have e1 : (A.filter fun a => decide (a = '*') && !decide (a ∈ ['U', 'V', 'W'])) = A.filter (· = '*') := by
    apply List.filter_congr
    intro c _
    by_cases h : c = '*'
    · subst h; decide
    · simp [h]
  have e2 : (A.filter fun a => !decide (a = '*') && !decide (a ∈ ['U', 'V', 'W'])) =
      A.filter (· ∉ ['U', 'V', 'W', '*']) := by
    apply List.filter_congr
    intro c _
    rw [Bool.eq_iff_iff]
    simp only [Bool.and_eq_true, Bool.not_eq_true', decide_eq_false_iff_not, decide_eq_true_eq, List.mem_cons,
      List.not_mem_nil, or_false]
    tauto
  rw [e1, e2] at h2
  rw [List.append_assoc]
  exact (h2.append_left _).trans h1

/-- Every position of each string is in exactly one group. -/
theorem C26_partition (xs ys rs : List Char) (hx : '_' ∉ xs) (hy : '_' ∉ ys) (hr : '_' ∉ rs) :
    let f := form2 xs ys rs
    ((f.xsums ++ f.xr.map (·.1) ++ f.xrg.map (·.1) ++ f.xy.map (·.1) ++ f.conv.map (·.1) ++ f.triple.map (·.1) ++
      f.transfers.map (·.1)).flatten).Perm (List.range xs.length) ∧
    ((f.ysums ++ f.yr.map (·.1) ++ f.yrg.map (·.1) ++ f.xy.map (·.2) ++ f.conv.map (·.2.1) ++ f.triple.map (·.2.1) ++
      f.transfers.map (·.2.1)).flatten).Perm (List.range ys.length) ∧
    ((f.bcasts ++ f.xr.map (·.2) ++ f.xrg.map (·.2) ++ f.yr.map (·.2) ++ f.yrg.map (·.2) ++ f.conv.map (·.2.2) ++
      f.triple.map (·.2.2) ++ f.transfers.map (·.2.2)).flatten).Perm (List.range rs.length) := by
  obtain ⟨a1, a2, a3, a4, a5, a6, a7, a8, a9, a10, a11⟩ := C26_groups xs ys rs hx hy hr
  dsimp only
  rw [a1, a2, a3, a4, a5, a6, a7, a8, a9, a10, a11]
  clear a1 a2 a3 a4 a5 a6 a7 a8 a9 a10 a11
  simp only [List.map_map, Function.comp_def, ← List.map_append, ← List.flatMap_def]
  have hS : ∀ A : List Char, (A.filter (· ≠ 'S') ++ A.filter (· = 'S')).Perm A := fun A => by
    simpa using filter_split_perm (fun c : Char => decide (c ≠ 'S')) A
  have hC : ∀ A : List Char, (A.filter (· ∈ ['U', 'V', 'W']) ++ A.filter (· = '*') ++
      A.filter (· ∉ ['U', 'V', 'W', '*'])).Perm A := split_special
  have nd : ∀ {A B : List Char}, A.Nodup → B.Nodup → (∀ a ∈ A, a ∉ B) → (A ++ B).Nodup := fun h1 h2 h3 =>
    List.nodup_append.2 ⟨h1, h2, fun a ha b hb e => h3 a ha (e ▸ hb)⟩
  refine ⟨?_, ?_, ?_⟩
  · have hp : (inNone xs rs ys ++ (inFirst rs xs ys).filter (· ≠ 'S') ++ (inFirst rs xs ys).filter (· = 'S') ++
        inFirst xs ys rs ++ (inAll rs xs ys).filter (· ∈ ['U', 'V', 'W']) ++ (inAll rs xs ys).filter (· = '*') ++
        (inAll rs xs ys).filter (· ∉ ['U', 'V', 'W', '*'])).Perm
        (inNone xs rs ys ++ (inFirst rs xs ys ++ (inFirst xs ys rs ++ inAll rs xs ys))) := by
      have := ((hS (inFirst rs xs ys)).append ((hC (inAll rs xs ys)).append_left (inFirst xs ys rs))).append_left
        (inNone xs rs ys)
      simpa only [List.append_assoc] using this
    apply positions_partition
    · rw [hp.nodup_iff]
      refine nd (inNone_nodup _ _ _) (nd (inFirst_nodup _ _ _) (nd (inFirst_nodup _ _ _) (inAll_nodup _ _ _) ?_) ?_) ?_ <;>
        (intro a; simp only [List.mem_append, mem_inNone, mem_inFirst, mem_inAll]; tauto)
    · intro c hc
      rw [hp.mem_iff]
      simp only [List.mem_append, mem_inNone, mem_inFirst, mem_inAll]
      tauto
  · have hp : (inNone ys rs xs ++ (inFirst rs ys xs).filter (· ≠ 'S') ++ (inFirst rs ys xs).filter (· = 'S') ++
        inFirst xs ys rs ++ (inAll rs xs ys).filter (· ∈ ['U', 'V', 'W']) ++ (inAll rs xs ys).filter (· = '*') ++
        (inAll rs xs ys).filter (· ∉ ['U', 'V', 'W', '*'])).Perm
        (inNone ys rs xs ++ (inFirst rs ys xs ++ (inFirst xs ys rs ++ inAll rs xs ys))) := by
      have := ((hS (inFirst rs ys xs)).append ((hC (inAll rs xs ys)).append_left (inFirst xs ys rs))).append_left
        (inNone ys rs xs)
      simpa only [List.append_assoc] using this
    apply positions_partition
    · rw [hp.nodup_iff]
      refine nd (inNone_nodup _ _ _) (nd (inFirst_nodup _ _ _) (nd (inFirst_nodup _ _ _) (inAll_nodup _ _ _) ?_) ?_) ?_ <;>
        (intro a; simp only [List.mem_append, mem_inNone, mem_inFirst, mem_inAll]; tauto)
    · intro c hc
      rw [hp.mem_iff]
      simp only [List.mem_append, mem_inNone, mem_inFirst, mem_inAll]
      tauto
  · have hp : (inNone rs xs ys ++ (inFirst rs xs ys).filter (· ≠ 'S') ++ (inFirst rs xs ys).filter (· = 'S') ++
        (inFirst rs ys xs).filter (· ≠ 'S') ++ (inFirst rs ys xs).filter (· = 'S') ++
        (inAll rs xs ys).filter (· ∈ ['U', 'V', 'W']) ++ (inAll rs xs ys).filter (· = '*') ++
        (inAll rs xs ys).filter (· ∉ ['U', 'V', 'W', '*'])).Perm
        (inNone rs xs ys ++ (inFirst rs xs ys ++ (inFirst rs ys xs ++ inAll rs xs ys))) := by
      have := ((hS (inFirst rs xs ys)).append ((hS (inFirst rs ys xs)).append (hC (inAll rs xs ys)))).append_left
        (inNone rs xs ys)
      simpa only [List.append_assoc] using this
    apply positions_partition
    · rw [hp.nodup_iff]
      refine nd (inNone_nodup _ _ _) (nd (inFirst_nodup _ _ _) (nd (inFirst_nodup _ _ _) (inAll_nodup _ _ _) ?_) ?_) ?_ <;>
        (intro a; simp only [List.mem_append, mem_inNone, mem_inFirst, mem_inAll]; tauto)
    · intro c hc
      rw [hp.mem_iff]
      simp only [List.mem_append, mem_inNone, mem_inFirst, mem_inAll]
      tauto

example : '_' ∉ "iUkas".toList ∧ '_' ∉ "kUibt".toList ∧ '_' ∉ "iUabc".toList ∧
    (form2 "iUkas".toList "kUibt".toList "iUabc".toList).transfers = [([0], [2], [0])] ∧
    (form2 "iUkas".toList "kUibt".toList "iUabc".toList).conv = [([1], [1], [1])] ∧
    (form2 "iUkas".toList "kUibt".toList "iUabc".toList).xy = [([2], [0])] ∧
    (form2 "iUkas".toList "kUibt".toList "iUabc".toList).xids = [0, 1, 6, 3, 7] ∧
    (form2 "iUkas".toList "kUibt".toList "iUabc".toList).yids = [6, 2, 0, 4, 8] ∧
    (form2 "iUkas".toList "kUibt".toList "iUabc".toList).rids = [0, 1, 3, 4, 5] := by decide

end Einsum
end Cnine
