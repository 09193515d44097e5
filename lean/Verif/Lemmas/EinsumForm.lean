import Verif.Model.Einsum
import Verif.Spec.Einsum
import Mathlib.Data.List.Nodup
import Mathlib.Data.List.Perm.Basic

namespace Cnine
namespace Einsum

variable {κ : Type} [DecidableEq κ]

theorem mem_letters {c : κ} {s : List κ} : c ∈ letters s ↔ c ∈ s := by
  induction s with
  | nil => simp [letters]
  | cons d s ih =>
    simp only [letters, List.mem_cons, List.mem_filter, ih, bne_iff_ne]
    by_cases h : c = d <;> simp [h]

theorem letters_nodup (s : List κ) : (letters s).Nodup := by
  induction s with
  | nil => exact .nil
  | cons d s ih => exact List.nodup_cons.2 ⟨by simp, ih.filter _⟩

theorem find_letters (p : κ → Bool) (s : List κ) : s.find? p = (letters s).find? p := by
  induction s with
  | nil => rfl
  | cons d s ih =>
    simp only [letters, List.find?_cons]
    cases hd : p d with
    | true => rfl
    | false =>
      simp only [ih]
      generalize letters s = l
      clear ih
      induction l with
      | nil => rfl
      | cons e l ih =>
        by_cases he : e = d
        · subst he; simp [hd, ih]
        · simp only [List.filter_cons, bne_iff_ne, ne_eq, he, not_false_eq_true, if_true, List.find?_cons]
          rw [ih]

theorem mem_positions {c : κ} {s : List κ} {i : Nat} : i ∈ positions c s ↔ s[i]? = some c := by
  unfold positions
  simp only [List.mem_filter, List.mem_range, beq_iff_eq, and_iff_right_iff_imp]
  intro h
  exact (List.getElem?_eq_some_iff.1 h).1

theorem positions_nodup (c : κ) (s : List κ) : (positions c s).Nodup := List.nodup_range.filter _

theorem positions_append (c : κ) (a b : List κ) :
    positions c (a ++ b) = positions c a ++ (positions c b).map (a.length + ·) := by
  unfold positions
  rw [List.length_append, List.range_add, List.filter_append, List.filter_map]
  congr 1
  · apply List.filter_congr
    intro i hi
    rw [List.getElem?_append_left (List.mem_range.1 hi)]
  · congr 1
    apply List.filter_congr
    intro i _
    simp [List.getElem?_append_right]

theorem positions_cons (c d : κ) (s : List κ) :
    positions c (d :: s) = (if d = c then [0] else []) ++ (positions c s).map (1 + ·) := by
  have := positions_append c [d] s
  rw [List.singleton_append] at this
  rw [this]
  congr 1
  simp [positions, List.range_succ]
  split <;> simp_all

theorem positions_eq_nil {c : κ} {s : List κ} : positions c s = [] ↔ c ∉ s := by
  rw [List.eq_nil_iff_forall_not_mem]
  simp only [mem_positions]
  constructor
  · intro h hc
    obtain ⟨i, hi⟩ := List.mem_iff_getElem?.1 hc
    exact h i hi
  · intro h i hi
    exact h (List.mem_of_getElem? hi)

theorem positions_map (c : κ) (s : List κ) (f : κ → κ) (h : ∀ d ∈ s, f d = c ↔ d = c) :
    positions c (s.map f) = positions c s := by
  unfold positions
  rw [List.length_map]
  apply List.filter_congr
  intro i hi
  rw [List.mem_range] at hi
  simp only [List.getElem?_map, List.getElem?_eq_getElem hi, Option.map_some]
  have := h s[i] (List.getElem_mem hi)
  rw [Bool.eq_iff_iff]
  simp [this]

theorem findAll_eq (c : Char) (hc : c ≠ '_') : ∀ (k : Nat) (s : List Char) (r : List Nat), s.count c < k →
    findAll k s c r = (r ++ positions c s, s.map fun d => if d = c then '_' else d) := by
  intro k
  induction k with
  | zero => intro s r h; omega
  | succ k ih =>
    intro s r h
    unfold findAll
    split
    · rename_i hf
      have hn : c ∉ s := by
        intro hm
        have := List.findIdx?_eq_none_iff.1 hf c hm
        simp at this
      rw [positions_eq_nil.2 hn, List.append_nil]
      congr 1
      exact (List.map_id s).symm.trans (List.map_congr_left fun d hd => by
        rw [if_neg (fun e : d = c => hn (e ▸ hd))]; rfl)
    · rename_i p hf
      obtain ⟨hp, h1, h2⟩ := List.findIdx?_eq_some_iff_getElem.1 hf
      have h1 : s[p] = c := by simpa using h1
      have hs : s = s.take p ++ c :: s.drop (p + 1) := by
        rw [← h1]; simp
      have hpre : c ∉ s.take p := by
        intro hm
        obtain ⟨j, hj, e⟩ := List.mem_iff_getElem.1 hm
        rw [List.length_take] at hj
        have := h2 j (by omega)
        rw [List.getElem_take] at e
        simp [e] at this
      have hset : s.set p '_' = s.take p ++ '_' :: s.drop (p + 1) := by
        rw [List.set_eq_take_append_cons_drop, if_pos hp]
      have hl : (s.take p).length = p := by rw [List.length_take]; omega
      rw [ih (s.set p '_') (r ++ [p]) (by
        rw [hset]
        rw [hs] at h
        simp only [List.count_append, List.count_cons, beq_self_eq_true, if_true] at h ⊢
        have : (('_' : Char) == c) = false := by simpa using fun h => hc h.symm
        simp only [this]
        simp
        omega)]
      have e1 : positions c s = p :: positions c (s.set p '_') := by
        rw [hset]
        conv => lhs; rw [hs]
        rw [positions_append, positions_append, positions_eq_nil.2 hpre, positions_cons, positions_cons, hl]
        have : ('_' : Char) ≠ c := fun h => hc h.symm
        simp [this]
      have e2 : (s.set p '_').map (fun d => if d = c then '_' else d) = s.map fun d => if d = c then '_' else d := by
        rw [hset]
        conv => rhs; rw [hs]
        have : ('_' : Char) ≠ c := fun h => hc h.symm
        simp [this]
      rw [e1, e2]
      simp

theorem findAllS_eq (c : Char) (hc : c ≠ '_') (s : List Char) :
    findAllS s c = (positions c s, s.map fun d => if d = c then '_' else d) := by
  have := findAll_eq c hc (s.length + 1) s [] (Nat.lt_succ_of_le List.count_le_length)
  simpa [findAllS] using this

theorem setIds_getElem? (v : List Nat) (id : Nat) (ids : List Nat) (i : Nat) :
    (setIds ids v id)[i]? = if i ∈ v then ids[i]?.map (fun _ => id) else ids[i]? := by
  unfold setIds
  induction v generalizing ids with
  | nil => simp
  | cons q v ih =>
    rw [List.foldl_cons, ih]
    by_cases h1 : i ∈ v
    · by_cases h2 : q = i
      · subst h2; simp [h1, List.getElem?_set]; split <;> simp_all
      · simp [h1, List.getElem?_set, h2]
    · by_cases h2 : q = i
      · subst h2; simp [h1, List.getElem?_set]; split <;> simp_all
      · have : i ≠ q := fun h => h2 h.symm
        simp [h1, List.getElem?_set, h2, this]

/-- Letters already processed are overwritten by `_`. -/
def mask (D : List Char) (s : List Char) : List Char := s.map fun c => if c ∈ D then '_' else c

/-- Id of a processed letter, 0 for the others. -/
def idIn (D : List Char) (c : Char) : Nat := if c ∈ D then D.idxOf c else 0

theorem mask_nil (s : List Char) : mask [] s = s := by simp [mask]

theorem find_mask (D s : List Char) (hs : '_' ∉ s) :
    (mask D s).find? (· != '_') = (letters s).find? (fun c => decide (c ∉ D)) := by
  rw [← find_letters]
  unfold mask
  induction s with
  | nil => rfl
  | cons c s ih =>
    simp only [List.mem_cons, not_or] at hs
    simp only [List.map_cons, List.find?_cons]
    by_cases h : c ∈ D
    · simp only [h, if_true, bne_self_eq_false, not_true_eq_false, decide_false]
      exact ih hs.2
    · have : (c != '_') = true := bne_iff_ne.2 (Ne.symm hs.1)
      simp only [h, if_false, this, not_false_eq_true, decide_true]

theorem find_next {L D rest : List Char} {c : Char} (hL : L.Nodup) (e : L = D ++ c :: rest) :
    L.find? (fun c => decide (c ∉ D)) = some c := by
  subst e
  rw [List.find?_append, List.find?_eq_none.2 (by simp)]
  have : c ∉ D := by
    rw [List.nodup_append] at hL
    exact fun h => hL.2.2 c h c (by simp) rfl
  simp [this]

theorem find_end (L : List Char) : L.find? (fun c => decide (c ∉ L)) = none := by
  rw [List.find?_eq_none]; simp

theorem findAllS_mask {D s : List Char} {c : Char} (hc : c ≠ '_') (hD : c ∉ D) :
    findAllS (mask D s) c = (positions c s, mask (D ++ [c]) s) := by
  rw [findAllS_eq c hc]
  congr 1
  · apply positions_map
    intro d _
    split
    · rename_i h
      constructor
      · intro e; exact absurd e.symm hc
      · intro e; exact absurd (e ▸ h) hD
    · rfl
  · unfold mask
    rw [List.map_map]
    apply List.map_congr_left
    intro d _
    by_cases h1 : d ∈ D
    · simp [h1, Ne.symm hc]
    · by_cases h2 : d = c <;> simp [h1, h2, hD]

theorem idIn_append {D : List Char} {c d : Char} (hD : c ∉ D) :
    idIn (D ++ [c]) d = if d = c then D.length else idIn D d := by
  unfold idIn
  by_cases h : d = c
  · subst h
    simp [hD, List.idxOf_append]
  · by_cases h1 : d ∈ D
    · simp [h, h1, List.idxOf_append]
    · simp [h, h1]

theorem setIds_mask {D s : List Char} {c : Char} (hD : c ∉ D) :
    setIds (s.map (idIn D)) (positions c s) D.length = s.map (idIn (D ++ [c])) := by
  apply List.ext_getElem?
  intro i
  rw [setIds_getElem?, List.getElem?_map, List.getElem?_map]
  cases h : s[i]? with
  | none => simp
  | some d =>
    simp only [mem_positions, h, Option.some.injEq, Option.map_some, idIn_append hD]
    split <;> rfl

theorem contains_mask {D s : List Char} {c : Char} (hc : c ≠ '_') (hD : c ∉ D) :
    (mask D s).contains c = decide (c ∈ s) := by
  rw [List.contains_eq_mem]
  congr 1
  unfold mask
  simp only [List.mem_map, eq_iff_iff]
  constructor
  · rintro ⟨d, hd, e⟩
    split at e
    · exact absurd e.symm hc
    · exact e ▸ hd
  · intro h
    exact ⟨c, h, by simp [hD]⟩

theorem idxs_append (D P : List Char) (c : Char) (hP : ∀ d ∈ P, d ∈ D) :
    P.map (fun d => (D ++ [c]).idxOf d) = P.map (fun d => D.idxOf d) := by
  apply List.map_congr_left
  intro d hd
  rw [List.idxOf_append, if_pos (hP d hd)]

/-- State of the first loop after the letters `D`. -/
def F1 (xs rs D : List Char) : Form1 where
  xstr := mask D xs
  rstr := mask D rs
  xids := xs.map (idIn D)
  rids := rs.map (idIn D)
  sums := []
  bcasts := (D.filter fun c => decide (c ∉ xs)).map (positions · rs)
  transfers := (D.filter fun c => decide (c ∈ xs) && decide (c ≠ 'S')).map fun c => (positions c xs, positions c rs)
  gathers := (D.filter fun c => decide (c ∈ xs) && decide (c = 'S')).map fun c => (positions c xs, positions c rs)
  bcastIds := (D.filter fun c => decide (c ∉ xs)).map fun c => D.idxOf c
  tail := D.length

theorem rStep_F1 {xs rs D : List Char} {c : Char} (hc : c ≠ '_') (hD : c ∉ D) :
    (F1 xs rs D).rStep c = F1 xs rs (D ++ [c]) := by
  have hids := idxs_append D (D.filter fun c => decide (c ∉ xs)) c (fun d h => (List.mem_filter.1 h).1)
  unfold Form1.rStep
  simp only [F1, findAllS_mask hc hD, contains_mask hc hD, setIds_mask hD, decide_eq_true_eq]
  by_cases h : c ∈ xs
  · by_cases hS : c = 'S'
    · subst hS
      simp only [h, if_true, ne_eq, not_true_eq_false, if_false, decide_true, decide_false,
        List.filter_append, List.filter_cons, List.filter_nil, Bool.and_true, Bool.and_false,
        List.append_nil, List.map_append, List.map_cons, List.map_nil, List.length_append, List.length_cons,
        List.length_nil, Nat.zero_add, Bool.false_eq_true]
      rw [hids]
    · simp only [h, hS, if_true, ne_eq, not_true_eq_false, not_false_eq_true, if_false, decide_true, decide_false,
        List.filter_append, List.filter_cons, List.filter_nil, Bool.and_true, Bool.and_false,
        List.append_nil, List.map_append, List.map_cons, List.map_nil, List.length_append, List.length_cons,
        List.length_nil, Nat.zero_add, Bool.false_eq_true]
      rw [hids]
  · have hm : mask (D ++ [c]) xs = mask D xs := by
      unfold mask
      apply List.map_congr_left
      intro d hd
      have : d ≠ c := fun e => h (e ▸ hd)
      simp [this]
    have hi : xs.map (idIn (D ++ [c])) = xs.map (idIn D) := by
      apply List.map_congr_left
      intro d hd
      rw [idIn_append hD, if_neg (fun e : d = c => h (e ▸ hd))]
    simp only [h, if_false, decide_false, decide_true, not_false_eq_true, hm, hi,
        List.filter_append, List.filter_cons, List.filter_nil, Bool.false_and, Bool.false_eq_true, if_true,
        List.append_nil, List.map_append, List.map_cons, List.map_nil, List.length_append, List.length_cons,
        List.length_nil, Nat.zero_add, hids]
    congr 2
    rw [List.idxOf_append, if_neg hD]
    simp

theorem rLoop_F1 {xs rs : List Char} (hr : '_' ∉ rs) : ∀ (rest D : List Char) (k : Nat), letters rs = D ++ rest →
    rest.length < k → (F1 xs rs D).rLoop k = F1 xs rs (letters rs) := by
  intro rest
  induction rest with
  | nil =>
    intro D k e hk
    cases k with
    | zero => omega
    | succ k =>
      rw [List.append_nil] at e
      unfold Form1.rLoop
      rw [show (F1 xs rs D).rstr = mask D rs from rfl, find_mask D rs hr, e, find_end]
  | cons c rest ih =>
    intro D k e hk
    cases k with
    | zero => omega
    | succ k =>
      have hc : c ∈ rs := mem_letters.1 (by rw [e]; simp)
      have hD : c ∉ D := by
        have := letters_nodup rs
        rw [e, List.nodup_append] at this
        exact fun h => this.2.2 c h c (by simp) rfl
      unfold Form1.rLoop
      rw [show (F1 xs rs D).rstr = mask D rs from rfl, find_mask D rs hr, find_next (letters_nodup rs) e]
      dsimp only
      rw [rStep_F1 (fun h => hr (h ▸ hc)) hD]
      exact ih (D ++ [c]) k (by rw [e]; simp) (by simp at hk; omega)

/-- State of the second loop after the letters `E`. -/
def G1 (xs rs E : List Char) : Form1 :=
  { F1 xs rs (letters rs) with
    xstr := mask (letters rs ++ E) xs
    xids := xs.map (idIn (letters rs ++ E))
    sums := E.map (positions · xs)
    tail := (letters rs ++ E).length }

theorem xStep_G1 {xs rs E : List Char} {c : Char} (hc : c ≠ '_') (hD : c ∉ letters rs ++ E) :
    (G1 xs rs E).xStep c = G1 xs rs (E ++ [c]) := by
  have hc' := findAllS_mask (s := xs) hc hD
  unfold Form1.xStep
  simp only [G1, hc', setIds_mask hD, List.map_append, List.map_cons, List.map_nil, List.append_assoc,
    List.length_append, List.length_cons, List.length_nil, Nat.add_assoc, Nat.zero_add]
  rw [← List.append_assoc, ← List.length_append, setIds_mask hD]

theorem find_rest (L M : List Char) (E : List Char) :
    M.find? (fun c => decide (c ∉ L ++ E)) = (M.filter fun c => decide (c ∉ L)).find? (fun c => decide (c ∉ E)) := by
  rw [List.find?_filter]
  congr 1
  funext c
  by_cases h1 : c ∈ L <;> by_cases h2 : c ∈ E <;> simp [h1, h2]

/-- The summation letters. -/
def sumLetters (xs rs : List Char) : List Char := (letters xs).filter fun c => decide (c ∉ letters rs)

theorem xLoop_G1 {xs rs : List Char} (hx : '_' ∉ xs) : ∀ (rest E : List Char) (k : Nat),
    sumLetters xs rs = E ++ rest → rest.length < k → (G1 xs rs E).xLoop k = G1 xs rs (sumLetters xs rs) := by
  have hnd : (sumLetters xs rs).Nodup := (letters_nodup xs).filter _
  intro rest
  induction rest with
  | nil =>
    intro E k e hk
    cases k with
    | zero => omega
    | succ k =>
      rw [List.append_nil] at e
      unfold Form1.xLoop
      rw [show (G1 xs rs E).xstr = mask (letters rs ++ E) xs from rfl, find_mask _ xs hx, find_rest,
        ← sumLetters, e, find_end]
  | cons c rest ih =>
    intro E k e hk
    cases k with
    | zero => omega
    | succ k =>
      have hcm : c ∈ sumLetters xs rs := by rw [e]; simp
      have hcm' := List.mem_filter.1 hcm
      have hc : c ∈ xs := mem_letters.1 hcm'.1
      have hD : c ∉ letters rs ++ E := by
        rw [List.mem_append, not_or]
        refine ⟨by simpa using hcm'.2, ?_⟩
        have := hnd
        rw [e, List.nodup_append] at this
        exact fun h => this.2.2 c h c (by simp) rfl
      unfold Form1.xLoop
      rw [show (G1 xs rs E).xstr = mask (letters rs ++ E) xs from rfl, find_mask _ xs hx, find_rest,
        ← sumLetters, find_next hnd e]
      dsimp only
      rw [xStep_G1 (fun h => hx (h ▸ hc)) hD]
      exact ih (E ++ [c]) k (by rw [e]; simp) (by simp at hk; omega)

theorem letters_length_le (s : List κ) : (letters s).length ≤ s.length := by
  induction s with
  | nil => simp [letters]
  | cons c s ih =>
    simp only [letters, List.length_cons]
    have := List.length_filter_le (· != c) (letters s)
    omega

theorem form1_eq {xs rs : List Char} (hx : '_' ∉ xs) (hr : '_' ∉ rs) : form1 xs rs = G1 xs rs (sumLetters xs rs) := by
  have h0 : Form1.start xs rs = F1 xs rs [] := by
    have hi : ∀ s : List Char, s.map (idIn []) = List.replicate s.length 0 := by
      intro s
      rw [← List.map_const']
      apply List.map_congr_left
      intro c _
      simp [idIn]
    simp [Form1.start, F1, mask_nil, hi]
  have h1 : F1 xs rs (letters rs) = G1 xs rs [] := by
    simp [G1, F1]
  unfold form1
  rw [h0, rLoop_F1 hr (letters rs) [] _ rfl (Nat.lt_succ_of_le (letters_length_le rs)), h1]
  apply xLoop_G1 hx _ [] _ rfl
  refine Nat.lt_succ_of_le (Nat.le_trans (List.length_filter_le _ _) (letters_length_le xs))

/-- The positions of a covering list of distinct letters partition the string. -/
theorem positions_partition (L s : List κ) (hL : L.Nodup) (hc : ∀ c ∈ s, c ∈ L) :
    (L.flatMap (positions · s)).Perm (List.range s.length) := by
  rw [List.perm_ext_iff_of_nodup _ List.nodup_range]
  · intro i
    simp only [List.mem_flatMap, mem_positions, List.mem_range]
    constructor
    · rintro ⟨c, -, h⟩
      exact (List.getElem?_eq_some_iff.1 h).1
    · intro h
      exact ⟨s[i], hc _ (List.getElem_mem h), List.getElem?_eq_getElem h⟩
  · rw [List.nodup_flatMap]
    refine ⟨fun c _ => positions_nodup c s, hL.imp ?_⟩
    intro a b hab i h1 h2
    rw [mem_positions] at h1 h2
    rw [h1] at h2
    exact hab (Option.some.inj h2)

theorem sumLetters_eq (xs rs : List Char) : sumLetters xs rs = onlyIn xs rs := by
  unfold sumLetters onlyIn
  congr 1
  funext c
  simp [mem_letters]

theorem mem_onlyIn {a b : List κ} {c : κ} : c ∈ onlyIn a b ↔ c ∈ a ∧ c ∉ b := by
  simp [onlyIn, mem_letters]

theorem mem_common {a b : List κ} {c : κ} : c ∈ common a b ↔ c ∈ a ∧ c ∈ b := by
  simp [common, mem_letters]

theorem mem_inAll {a b c : List κ} {k : κ} : k ∈ inAll a b c ↔ k ∈ a ∧ k ∈ b ∧ k ∈ c := by
  simp [inAll, mem_letters]

theorem mem_inFirst {a b c : List κ} {k : κ} : k ∈ inFirst a b c ↔ k ∈ a ∧ k ∈ b ∧ k ∉ c := by
  simp [inFirst, mem_letters]

theorem mem_inNone {a b c : List κ} {k : κ} : k ∈ inNone a b c ↔ k ∈ a ∧ k ∉ b ∧ k ∉ c := by
  simp [inNone, mem_letters]

theorem inAll_nodup (a b c : List κ) : (inAll a b c).Nodup := (letters_nodup a).filter _
theorem inFirst_nodup (a b c : List κ) : (inFirst a b c).Nodup := (letters_nodup a).filter _
theorem inNone_nodup (a b c : List κ) : (inNone a b c).Nodup := (letters_nodup a).filter _

theorem onlyIn_nodup (a b : List κ) : (onlyIn a b).Nodup := (letters_nodup a).filter _
theorem common_nodup (a b : List κ) : (common a b).Nodup := (letters_nodup a).filter _

end Einsum
end Cnine
