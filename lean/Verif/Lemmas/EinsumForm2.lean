import Verif.Model.Einsum2
import Verif.Lemmas.EinsumForm

namespace Cnine
namespace Einsum

theorem setIds_map {s : List Char} (g : Char → Nat) (c : Char) (id : Nat) :
    setIds (s.map g) (positions c s) id = s.map fun d => if d = c then id else g d := by
  apply List.ext_getElem?
  intro i
  rw [setIds_getElem?, List.getElem?_map, List.getElem?_map]
  cases h : s[i]? with
  | none => simp
  | some d =>
    simp only [mem_positions, h, Option.some.injEq, Option.map_some]
    split <;> rfl

theorem mask_skip {D s : List Char} {c : Char} (h : c ∉ s) : mask (D ++ [c]) s = mask D s := by
  unfold mask
  apply List.map_congr_left
  intro d hd
  have : d ≠ c := fun e => h (e ▸ hd)
  simp [this]

/-- A convolution letter: U, V or W occurring in all three strings. -/
def convLetter (xs ys rs : List Char) (c : Char) : Bool :=
  isConv c && decide (c ∈ rs) && decide (c ∈ xs) && decide (c ∈ ys)

/-- Ids handed out for the letters `D`: one each, two for a convolution letter (the second for y). -/
def slots (xs ys rs D : List Char) : List (Char × Bool) :=
  D.flatMap fun c => if convLetter xs ys rs c then [(c, false), (c, true)] else [(c, false)]

/-- Id of a key that has been handed out, 0 for the others. -/
def idK (S : List (Char × Bool)) (k : Char × Bool) : Nat := if k ∈ S then S.idxOf k else 0

theorem mem_slots {xs ys rs D : List Char} {k : Char × Bool} :
    k ∈ slots xs ys rs D ↔ k.1 ∈ D ∧ (k.2 = true → convLetter xs ys rs k.1 = true) := by
  unfold slots
  rw [List.mem_flatMap]
  obtain ⟨c, b⟩ := k
  constructor
  · rintro ⟨d, hd, h⟩
    split at h <;> rename_i hc
    · simp only [List.mem_cons, Prod.mk.injEq, List.not_mem_nil, or_false] at h
      rcases h with ⟨rfl, rfl⟩ | ⟨rfl, rfl⟩
      · exact ⟨hd, by simp⟩
      · exact ⟨hd, fun _ => hc⟩
    · simp only [List.mem_cons, Prod.mk.injEq, List.not_mem_nil, or_false] at h
      obtain ⟨rfl, rfl⟩ := h
      exact ⟨hd, by simp⟩
  · rintro ⟨h1, h2⟩
    refine ⟨c, h1, ?_⟩
    cases b with
    | false => split <;> simp
    | true => rw [if_pos (h2 rfl)]; simp

theorem slots_append (xs ys rs D : List Char) (c : Char) : slots xs ys rs (D ++ [c]) = slots xs ys rs D ++
    if convLetter xs ys rs c then [(c, false), (c, true)] else [(c, false)] := by
  simp [slots]

theorem slots_length (xs ys rs D : List Char) (c : Char) : (slots xs ys rs (D ++ [c])).length =
    (slots xs ys rs D).length + if convLetter xs ys rs c then 2 else 1 := by
  rw [slots_append, List.length_append]
  split <;> rfl

theorem slots_nodup {xs ys rs D : List Char} (hD : D.Nodup) : (slots xs ys rs D).Nodup := by
  unfold slots
  rw [List.nodup_flatMap]
  refine ⟨fun c _ => by split <;> simp, hD.imp ?_⟩
  intro a b hab k h1 h2
  dsimp only at h1 h2
  have e1 : k.1 = a := by
    split at h1
    · simp only [List.mem_cons, List.not_mem_nil, or_false] at h1
      rcases h1 with h | h <;> simp [h]
    · simp only [List.mem_cons, List.not_mem_nil, or_false] at h1
      simp [h1]
  have e2 : k.1 = b := by
    split at h2
    · simp only [List.mem_cons, List.not_mem_nil, or_false] at h2
      rcases h2 with h | h <;> simp [h]
    · simp only [List.mem_cons, List.not_mem_nil, or_false] at h2
      simp [h2]
  exact hab (e1.symm.trans e2)

theorem idK_append {xs ys rs D : List Char} {c : Char} (hD : c ∉ D) (d : Char) (b : Bool)
    (hb : b = true → convLetter xs ys rs d = true) :
    idK (slots xs ys rs (D ++ [c])) (d, b) =
      if d = c then (slots xs ys rs D).length + (if b then 1 else 0) else idK (slots xs ys rs D) (d, b) := by
  have hm := mem_slots (xs := xs) (ys := ys) (rs := rs) (D := D ++ [c]) (k := (d, b))
  have hm' := mem_slots (xs := xs) (ys := ys) (rs := rs) (D := D) (k := (d, b))
  unfold idK
  by_cases h : d = c
  · subst h
    have h1 : (d, b) ∉ slots xs ys rs D := fun h => hD (hm'.1 h).1
    rw [if_pos (hm.2 ⟨by simp, hb⟩), if_pos rfl, slots_append, List.idxOf_append, if_neg h1, Nat.add_comm]
    congr 1
    cases b with
    | false => split <;> simp
    | true => rw [if_pos (hb rfl)]; simp
  · rw [if_neg h]
    by_cases h1 : (d, b) ∈ slots xs ys rs D
    · have h2 := hm'.1 h1
      rw [if_pos h1, if_pos (hm.2 ⟨by simp [h2.1], hb⟩), slots_append, List.idxOf_append, if_pos h1]
    · have : d ∉ D := fun hd => h1 (hm'.2 ⟨hd, hb⟩)
      rw [if_neg h1, if_neg (fun hh => by simpa [h, this] using (hm.1 hh).1)]

/-- State of the analysis after the letters `D`. -/
def K2 (xs ys rs D : List Char) : Form2 where
  xstr := mask D xs
  ystr := mask D ys
  rstr := mask D rs
  xids := xs.map fun c => idK (slots xs ys rs D) (c, false)
  yids := ys.map fun c => idK (slots xs ys rs D) (c, convLetter xs ys rs c)
  rids := rs.map fun c => idK (slots xs ys rs D) (c, false)
  xsums := (D.filter fun c => decide (c ∉ rs) && decide (c ∈ xs) && decide (c ∉ ys)).map (positions · xs)
  ysums := (D.filter fun c => decide (c ∉ rs) && decide (c ∉ xs) && decide (c ∈ ys)).map (positions · ys)
  bcasts := (D.filter fun c => decide (c ∈ rs) && decide (c ∉ xs) && decide (c ∉ ys)).map (positions · rs)
  xr := (D.filter fun c => decide (c ∈ rs) && decide (c ∈ xs) && decide (c ∉ ys) && decide (c ≠ 'S')).map
    fun c => (positions c xs, positions c rs)
  yr := (D.filter fun c => decide (c ∈ rs) && decide (c ∉ xs) && decide (c ∈ ys) && decide (c ≠ 'S')).map
    fun c => (positions c ys, positions c rs)
  xy := (D.filter fun c => decide (c ∉ rs) && decide (c ∈ xs) && decide (c ∈ ys)).map
    fun c => (positions c xs, positions c ys)
  transfers := (D.filter fun c => decide (c ∈ rs) && decide (c ∈ xs) && decide (c ∈ ys) && decide (c ≠ '*') &&
    !isConv c).map fun c => (positions c xs, positions c ys, positions c rs)
  conv := (D.filter fun c => decide (c ∈ rs) && decide (c ∈ xs) && decide (c ∈ ys) && isConv c).map
    fun c => (positions c xs, positions c ys, positions c rs)
  triple := (D.filter fun c => decide (c ∈ rs) && decide (c ∈ xs) && decide (c ∈ ys) && decide (c = '*')).map
    fun c => (positions c xs, positions c ys, positions c rs)
  xrg := (D.filter fun c => decide (c ∈ rs) && decide (c ∈ xs) && decide (c ∉ ys) && decide (c = 'S')).map
    fun c => (positions c xs, positions c rs)
  yrg := (D.filter fun c => decide (c ∈ rs) && decide (c ∉ xs) && decide (c ∈ ys) && decide (c = 'S')).map
    fun c => (positions c ys, positions c rs)
  bcastIds := (D.filter fun c => decide (c ∈ rs) && decide (c ∉ xs) && decide (c ∉ ys)).map
    fun c => idK (slots xs ys rs D) (c, false)
  tail := (slots xs ys rs D).length

section
variable {xs ys rs D : List Char} {c : Char}

theorem ids_false (s : List Char) (hD : c ∉ D) :
    (s.map fun d => idK (slots xs ys rs (D ++ [c])) (d, false)) =
      s.map fun d => if d = c then (slots xs ys rs D).length else idK (slots xs ys rs D) (d, false) := by
  apply List.map_congr_left
  intro d _
  rw [idK_append hD d false (by simp)]
  simp

theorem ids_skip {s : List Char} (hD : c ∉ D) (h : c ∉ s) :
    (s.map fun d => idK (slots xs ys rs (D ++ [c])) (d, false)) =
      s.map fun d => idK (slots xs ys rs D) (d, false) := by
  rw [ids_false s hD]
  apply List.map_congr_left
  intro d hd
  rw [if_neg (fun e : d = c => h (e ▸ hd))]

theorem ids_y (s : List Char) (hD : c ∉ D) :
    (s.map fun d => idK (slots xs ys rs (D ++ [c])) (d, convLetter xs ys rs d)) =
      s.map fun d => if d = c then (slots xs ys rs D).length + (if convLetter xs ys rs c then 1 else 0)
        else idK (slots xs ys rs D) (d, convLetter xs ys rs d) := by
  apply List.map_congr_left
  intro d _
  rw [idK_append hD d _ (by simp)]
  by_cases h : d = c
  · subst h; rfl
  · simp [h]

theorem ids_y_skip {s : List Char} (hD : c ∉ D) (h : c ∉ s) :
    (s.map fun d => idK (slots xs ys rs (D ++ [c])) (d, convLetter xs ys rs d)) =
      s.map fun d => idK (slots xs ys rs D) (d, convLetter xs ys rs d) := by
  rw [ids_y s hD]
  apply List.map_congr_left
  intro d hd
  rw [if_neg (fun e : d = c => h (e ▸ hd))]

theorem bids_append (p : Char → Bool) (hD : c ∉ D) :
    ((D.filter p).map fun d => idK (slots xs ys rs (D ++ [c])) (d, false)) =
      (D.filter p).map fun d => idK (slots xs ys rs D) (d, false) :=
  ids_skip hD fun h => hD (List.mem_filter.1 h).1

theorem rStep_K2 (hc : c ≠ '_') (hD : c ∉ D) (hr : c ∈ rs) : (K2 xs ys rs D).rStep c = K2 xs ys rs (D ++ [c]) := by
  have hlast : idK (slots xs ys rs (D ++ [c])) (c, false) = (slots xs ys rs D).length := by
    rw [idK_append hD c false (by simp)]; simp
  have hconv := slots_length xs ys rs D c
  have hS : isConv 'S' = false := by decide
  have hstar : isConv '*' = false := by decide
  unfold Form2.rStep Form2.rStepX Form2.rStepY Form2.rStepXY
  simp only [K2, findAllS_mask hc hD, contains_mask hc hD, setIds_map, decide_eq_true_eq, List.filter_append,
    List.filter_cons, List.filter_nil, hr, List.map_append, bids_append _ hD, ids_false rs hD]
  by_cases h1 : c ∈ xs
  · by_cases h2 : c ∈ ys
    · by_cases h3 : c = '*'
      · subst h3
        have h5 : convLetter xs ys rs '*' = false := by simp [convLetter, hstar]
        simp [h1, h2, hstar, ids_false xs hD, ids_y ys hD, h5, hconv]
      · cases h4 : isConv c with
        | true =>
          have h5 : convLetter xs ys rs c = true := by simp [convLetter, h1, h2, hr, h4]
          simp [h1, h2, h3, h4, ids_false xs hD, ids_y ys hD, h5, hconv]
        | false =>
          have h5 : convLetter xs ys rs c = false := by simp [convLetter, h4]
          simp [h1, h2, h3, h4, ids_false xs hD, ids_y ys hD, h5, hconv]
    · have h5 : convLetter xs ys rs c = false := by simp [convLetter, h2]
      by_cases h3 : c = 'S'
      · subst h3
        simp [h1, h2, ids_false xs hD, ids_y_skip hD h2, h5, hconv, mask_skip h2]
      · simp [h1, h2, h3, ids_false xs hD, ids_y_skip hD h2, h5, hconv, mask_skip h2]
  · have h5 : convLetter xs ys rs c = false := by simp [convLetter, h1]
    by_cases h2 : c ∈ ys
    · by_cases h3 : c = 'S'
      · subst h3
        simp [h1, h2, ids_skip hD h1, ids_y ys hD, h5, hconv, mask_skip h1]
      · simp [h1, h2, h3, ids_skip hD h1, ids_y ys hD, h5, hconv, mask_skip h1]
    · simp [h1, h2, ids_skip hD h1, ids_y_skip hD h2, h5, hconv, mask_skip h1, mask_skip h2, hlast]

theorem xStep_K2 (hc : c ≠ '_') (hD : c ∉ D) (hr : c ∉ rs) (hx : c ∈ xs) :
    (K2 xs ys rs D).xStep c = K2 xs ys rs (D ++ [c]) := by
  have hconv := slots_length xs ys rs D c
  have h5 : convLetter xs ys rs c = false := by simp [convLetter, hr]
  unfold Form2.xStep
  simp only [K2, findAllS_mask hc hD, contains_mask hc hD, setIds_map, decide_eq_true_eq, List.filter_append,
    List.filter_cons, List.filter_nil, hr, hx, List.map_append, bids_append _ hD, ids_skip hD hr, ids_false xs hD]
  by_cases h2 : c ∈ ys
  · simp [h2, ids_y ys hD, h5, hconv, mask_skip hr]
  · simp [h2, ids_y_skip hD h2, h5, hconv, mask_skip hr, mask_skip h2]

theorem yStep_K2 (hc : c ≠ '_') (hD : c ∉ D) (hr : c ∉ rs) (hx : c ∉ xs) (hy : c ∈ ys) :
    (K2 xs ys rs D).yStep c = K2 xs ys rs (D ++ [c]) := by
  have hconv := slots_length xs ys rs D c
  have h5 : convLetter xs ys rs c = false := by simp [convLetter, hr]
  unfold Form2.yStep
  simp only [K2, findAllS_mask hc hD, setIds_map, List.filter_append,
    List.filter_cons, List.filter_nil, hr, hx, hy, List.map_append, bids_append _ hD, ids_skip hD hr, ids_skip hD hx]
  simp [ids_y ys hD, h5, hconv, mask_skip hr, mask_skip hx]
end

/-- All three loops: the letters not yet processed of the string `s` are processed in order. -/
theorem phase {xs ys rs : List Char} {s : List Char} (hs : '_' ∉ s) (get : Form2 → List Char)
    (step : Char → Form2 → Form2) (lp : Nat → Form2 → Form2)
    (hget : ∀ D, get (K2 xs ys rs D) = mask D s)
    (hlp : ∀ k f, lp (k + 1) f = match (get f).find? (· != '_') with | none => f | some c => lp k (step c f))
    (D0 : List Char)
    (hstep : ∀ c D, c ≠ '_' → c ∈ s → c ∉ D0 ++ D → step c (K2 xs ys rs (D0 ++ D)) = K2 xs ys rs (D0 ++ D ++ [c])) :
    ∀ (rest D : List Char) (k : Nat), ((letters s).filter fun c => decide (c ∉ D0)) = D ++ rest → rest.length < k →
      lp k (K2 xs ys rs (D0 ++ D)) = K2 xs ys rs (D0 ++ (letters s).filter fun c => decide (c ∉ D0)) := by
  have hnd : ((letters s).filter fun c => decide (c ∉ D0)).Nodup := (letters_nodup s).filter _
  intro rest
  induction rest with
  | nil =>
    intro D k e hk
    cases k with
    | zero => omega
    | succ k =>
      rw [List.append_nil] at e
      rw [hlp, hget, find_mask _ s hs, find_rest, e, find_end]
  | cons c rest ih =>
    intro D k e hk
    cases k with
    | zero => omega
    | succ k =>
      have hcm := List.mem_filter.1 (show c ∈ (letters s).filter fun c => decide (c ∉ D0) by rw [e]; simp)
      have hc : c ∈ s := mem_letters.1 hcm.1
      have hD : c ∉ D0 ++ D := by
        rw [List.mem_append, not_or]
        refine ⟨by simpa using hcm.2, ?_⟩
        have := hnd
        rw [e, List.nodup_append] at this
        exact fun h => this.2.2 c h c (by simp) rfl
      rw [hlp, hget, find_mask _ s hs, find_rest, find_next hnd e]
      dsimp only
      rw [hstep c D (fun h => hs (h ▸ hc)) hc hD, List.append_assoc]
      exact ih (D ++ [c]) k (by rw [e]; simp) (by simp at hk; omega)

/-- All letters in the order in which they are processed. -/
def order (xs ys rs : List Char) : List Char :=
  let A := letters rs
  let B := A ++ (letters xs).filter fun c => decide (c ∉ A)
  B ++ (letters ys).filter fun c => decide (c ∉ B)

theorem form2_eq {xs ys rs : List Char} (hx : '_' ∉ xs) (hy : '_' ∉ ys) (hr : '_' ∉ rs) :
    form2 xs ys rs = K2 xs ys rs (order xs ys rs) := by
  have h0 : Form2.start xs ys rs = K2 xs ys rs ([] ++ []) := by
    have hi : ∀ (s : List Char) (g : Char → Char × Bool), (s.map fun c => idK [] (g c)) = List.replicate s.length 0 := by
      intro s g
      rw [← List.map_const']
      apply List.map_congr_left
      intro c _
      simp [idK]
    simp only [Form2.start, K2, List.append_nil, mask_nil, slots, List.flatMap_nil, hi, List.filter_nil, List.map_nil,
      List.length_nil, List.replicate_zero]
  have hle : ∀ (s D0 : List Char), ((letters s).filter fun c => decide (c ∉ D0)).length < s.length + 1 := fun s D0 =>
    Nat.lt_succ_of_le (Nat.le_trans (List.length_filter_le _ _) (letters_length_le s))
  have hA : ((letters rs).filter fun c => decide (c ∉ ([] : List Char))) = letters rs := by simp
  unfold form2
  rw [h0, phase hr Form2.rstr Form2.rStep Form2.rLoop (fun _ => rfl) (fun _ _ => rfl) []
    (fun c D h1 h2 h3 => rStep_K2 h1 h3 h2) _ [] _ rfl (hle rs []), hA]
  have e1 : K2 xs ys rs ([] ++ letters rs) = K2 xs ys rs (letters rs ++ []) := by simp
  rw [e1, phase hx Form2.xstr Form2.xStep Form2.xLoop (fun _ => rfl) (fun _ _ => rfl) (letters rs)
    (fun c D h1 h2 h3 => xStep_K2 h1 h3 (fun h => h3 (by simp [mem_letters, h])) h2) _ [] _ rfl (hle xs _)]
  rw [← List.append_nil (letters rs ++ _), phase hy Form2.ystr Form2.yStep Form2.yLoop (fun _ => rfl) (fun _ _ => rfl) _
    (fun c D h1 h2 h3 => by
      have hr' : c ∉ rs := fun h => h3 (by simp [mem_letters, h])
      have hx' : c ∉ xs := fun h => h3 (by simp [mem_letters, h, hr'])
      exact yStep_K2 h1 h3 hr' hx' h2) _ [] _ rfl (hle ys _)]
  rfl

theorem mem_order {xs ys rs : List Char} {c : Char} : c ∈ order xs ys rs ↔ c ∈ xs ∨ c ∈ ys ∨ c ∈ rs := by
  simp only [order, List.mem_append, List.mem_filter, mem_letters, decide_eq_true_eq]
  tauto

theorem order_nodup (xs ys rs : List Char) : (order xs ys rs).Nodup := by
  unfold order
  dsimp only
  have key : ∀ (A s : List Char), A.Nodup → (A ++ (letters s).filter fun c => decide (c ∉ A)).Nodup := by
    intro A s hA
    rw [List.nodup_append]
    refine ⟨hA, (letters_nodup s).filter _, ?_⟩
    rintro a ha b hb rfl
    simp [ha] at hb
  exact key _ _ (key _ _ (letters_nodup rs))

/-- A filter on the processing order that selects only letters of the result. -/
theorem order_filter_r (xs ys rs : List Char) (p : Char → Bool) (h : ∀ c, p c = true → c ∈ rs) :
    (order xs ys rs).filter p = (letters rs).filter p := by
  unfold order
  dsimp only
  rw [List.filter_append, List.filter_append]
  have e : ∀ (s D : List Char), (∀ c ∈ rs, c ∈ D) →
      ((letters s).filter fun c => decide (c ∉ D)).filter p = [] := by
    intro s D hD
    rw [List.filter_eq_nil_iff]
    intro c hc hp
    simp only [List.mem_filter, decide_eq_true_eq] at hc
    exact hc.2 (hD c (h c hp))
  rw [e xs _ (fun c hc => mem_letters.2 hc), e ys _ (fun c hc => by simp [mem_letters, hc])]
  simp

theorem order_filter_x (xs ys rs : List Char) (p : Char → Bool) (h : ∀ c, p c = true → c ∈ xs ∧ c ∉ rs) :
    (order xs ys rs).filter p = (letters xs).filter p := by
  unfold order
  dsimp only
  rw [List.filter_append, List.filter_append]
  have e1 : (letters rs).filter p = [] := by
    rw [List.filter_eq_nil_iff]
    intro c hc hp
    exact (h c hp).2 (mem_letters.1 hc)
  have e2 : ((letters ys).filter fun c => decide (c ∉ letters rs ++ (letters xs).filter fun c => decide (c ∉ letters rs))).filter p
      = [] := by
    rw [List.filter_eq_nil_iff]
    intro c hc hp
    simp only [List.mem_filter, decide_eq_true_eq, List.mem_append, mem_letters] at hc
    exact hc.2 (Or.inr (h c hp))
  rw [e1, e2, List.nil_append, List.append_nil, List.filter_filter]
  apply List.filter_congr
  intro c _
  cases hp : p c with
  | false => simp
  | true => simp [mem_letters, (h c hp).2]

theorem order_filter_y (xs ys rs : List Char) (p : Char → Bool) (h : ∀ c, p c = true → c ∉ xs ∧ c ∉ rs) :
    (order xs ys rs).filter p = (letters ys).filter p := by
  unfold order
  dsimp only
  rw [List.filter_append]
  have e1 : (letters rs ++ (letters xs).filter fun c => decide (c ∉ letters rs)).filter p = [] := by
    rw [List.filter_eq_nil_iff]
    intro c hc hp
    simp only [List.mem_filter, decide_eq_true_eq, List.mem_append, mem_letters] at hc
    have := h c hp
    tauto
  rw [e1, List.nil_append, List.filter_filter]
  apply List.filter_congr
  intro c _
  cases hp : p c with
  | false => simp
  | true => simp [mem_letters, (h c hp).1, (h c hp).2]

end Einsum
end Cnine
