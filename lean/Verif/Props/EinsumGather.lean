import Verif.Props.Einsum1

/-! # C86: one-operand einsum through a gather map -/

namespace Cnine
namespace Einsum

variable {α : Type}

/-- The sub-view at value `i` of the letter `c`. -/
def slice (v : View) (s : List Char) (c : Char) (i : Nat) : View :=
  ⟨v.off + i * comb c s v.strides, ((s.zip v.dims).filter fun p => decide (p.1 ≠ c)).map (·.2),
    ((s.zip v.strides).filter fun p => decide (p.1 ≠ c)).map (·.2)⟩

theorem zip_filter_map (c : Char) (s : List Char) (f : Char → Nat) :
    ((s.zip (s.map f)).filter fun p => decide (p.1 ≠ c)).map (·.2) = (s.filter fun d => decide (d ≠ c)).map f := by
  induction s with
  | nil => rfl
  | cons d s ih =>
    by_cases h : d = c
    · simpa [h] using ih
    · simpa [h] using ih

theorem comb_filter (c d : Char) (s : List Char) (st : List Nat) (h : d ≠ c) :
    comb d (s.filter fun e => decide (e ≠ c)) (((s.zip st).filter fun p => decide (p.1 ≠ c)).map (·.2)) = comb d s st := by
  induction s generalizing st with
  | nil => simp [comb]
  | cons e s ih =>
    cases st with
    | nil =>
      have : ∀ l : List Char, comb d l [] = 0 := fun l => by simp [comb]
      simp [this]
    | cons a st =>
      rw [comb_cons, ← ih st]
      by_cases he : e = c
      · subst he
        simp [Ne.symm h]
      · simp [he, comb_cons]

theorem slice_dot (c : Char) (i : Nat) (s : List Char) (st : List Nat) (ρ : Char → Nat) (hl : s.length = st.length) :
    i * comb c s st + dot (((s.zip st).filter fun p => decide (p.1 ≠ c)).map (·.2)) ((s.filter fun d => decide (d ≠ c)).map ρ) =
      dot st (s.map (upd ρ c i)) := by
  induction s generalizing st with
  | nil => simp [comb]
  | cons d s ih =>
    cases st with
    | nil => simp at hl
    | cons a st =>
      have := ih st (by simpa using hl)
      rw [List.map_cons, dot_cons, ← this, comb_cons]
      by_cases h : d = c
      · subst h
        simp [upd, Nat.mul_add, Nat.mul_comm a i]
        omega
      · simp [upd, h]
        omega

theorem slice_cell (v : View) (s : List Char) (c : Char) (i : Nat) (ρ : Char → Nat) (hl : s.length = v.strides.length) :
    (slice v s c i).cell ((s.filter fun d => decide (d ≠ c)).map ρ) = v.cell (s.map (upd ρ c i)) := by
  have := slice_dot c i s v.strides ρ hl
  simp only [View.cell, slice]
  omega

theorem zip_filter_length (c : Char) (s : List Char) (a : List Nat) (h : s.length = a.length) :
    (s.filter fun d => decide (d ≠ c)).length = ((s.zip a).filter fun p => decide (p.1 ≠ c)).length := by
  induction s generalizing a with
  | nil => simp
  | cons d s ih =>
    cases a with
    | nil => simp at h
    | cons a as =>
      have := ih as (by simpa using h)
      by_cases h : d = c
      · simpa [h] using this
      · simpa [h] using this

theorem run1_shift [Zero α] [Add α] (p : P1) (xo ro : Nat) (r x r' x' : View) (hr : r'.off = r.off + ro)
    (hx : x'.off = x.off + xo) (m : Buf α) : run1 p xo ro r x m = run1 p 0 0 r' x' m := by
  unfold run1
  simp only [hr, hx, Nat.zero_add, Nat.add_assoc]

theorem upd_self (ρ : Char → Nat) (c : Char) : upd ρ c (ρ c) = ρ := by
  funext d
  simp only [upd]
  split
  · rename_i h; rw [h]
  · rfl

theorem map_filter_upd (s : List Char) (c : Char) (ρ : Char → Nat) (i : Nat) :
    (s.filter fun d => decide (d ≠ c)).map (upd ρ c i) = (s.filter fun d => decide (d ≠ c)).map ρ := by
  apply map_upd_not_mem
  simp

theorem sumOver_shift [AddCommMonoid α] (len : Char → Nat) (c : Char) (j : Nat) (f : (Char → Nat) → α) (A : List Char)
    (h : c ∉ A) (ρ : Char → Nat) : sumOver len f A (upd ρ c j) = sumOver len (fun σ => f (upd σ c j)) A ρ := by
  induction A generalizing ρ with
  | nil => rfl
  | cons d A ih =>
    simp only [List.mem_cons, not_or] at h
    simp only [sumOver, upd_comm ρ h.1, fun ρ => ih h.2 ρ]

/-- `add_einsum(r,x,gmap)`: `S` occurs in both strings and has extent `n` in `r`, `k` in `x`; the map has the
edges (target, source).  Each element of `r` at an assignment `ρ` gains, for every edge whose target is `ρ S`, the sum
over the summation letters of `x` with `S` replaced by the source.  At most three other common letters. -/
theorem C86_gather [AddCommMonoid α] (xs rs : List Char) (hx : '_' ∉ xs) (hr : '_' ∉ rs)
    (hSx : 'S' ∈ xs) (hSr : 'S' ∈ rs) (len : Char → Nat) (n k : Nat) (r x : View)
    (hrd : r.dims = rs.map (upd len 'S' n)) (hxd : x.dims = xs.map (upd len 'S' k)) (hrw : r.WF) (hxw : x.WF)
    (hdist : r.Distinct) (hapart : r.Apart x)
    (hS : (onlyIn xs rs).length ≤ 3) (hB : (onlyIn rs xs).length ≤ 3)
    (hT : ((common rs xs).filter (· ≠ 'S')).length ≤ 3)
    (edges : List (Nat × Nat)) (hed : ∀ e ∈ edges, e.1 < n ∧ e.2 < k)
    (m : Buf α) (V : (Char → Nat) → α) (X : List Nat → α)
    (hR : ∀ ρ, Fits (upd len 'S' n) rs ρ → r.val m (rs.map ρ) = some (V ρ))
    (hX : ∀ ρ, Fits (upd len 'S' k) xs ρ → x.val m (xs.map ρ) = some (X (xs.map ρ))) :
    ∃ m', addEinsum1Gather (form1 xs rs) edges r x m = .ok m' ∧
      (∀ ρ, Fits (upd len 'S' n) rs ρ → r.val m' (rs.map ρ) =
        some (V ρ + ((edges.filter fun e => decide (e.1 = ρ 'S')).map fun e =>
          sumOver len (fun ρ => X (xs.map ρ)) (onlyIn xs rs) (upd ρ 'S' e.2)).sum)) ∧
      ∀ c, (∀ ρ, Fits (upd len 'S' n) rs ρ → c ≠ r.cell (rs.map ρ)) → m' c = m c := by
  obtain ⟨h1, h2, h3, h4⟩ := C23_groups xs rs hx hr
  have hrl : rs.length = r.strides.length := by rw [hrw, hrd, List.length_map]
  have hxl : xs.length = x.strides.length := by rw [hxw, hxd, List.length_map]
  set T := (common rs xs).filter (· ≠ 'S') with hTdef
  have hTn : T.Nodup := (common_nodup _ _).filter _
  have hTm : ∀ c, c ∈ T ↔ (c ∈ rs ∧ c ∈ xs) ∧ c ≠ 'S' := fun c => by
    rw [hTdef, List.mem_filter, mem_common]
    simp
  have hgS : (common rs xs).filter (· = 'S') = ['S'] := by
    have hm : 'S' ∈ common rs xs := mem_common.2 ⟨hSr, hSx⟩
    have : ∀ L : List Char, L.Nodup → 'S' ∈ L → L.filter (· = 'S') = ['S'] := by
      intro L
      induction L with
      | nil => simp
      | cons d L ih =>
        intro hn hm
        rw [List.nodup_cons] at hn
        by_cases hd : d = 'S'
        · subst hd
          simp only [List.filter_cons, decide_true, if_true]
          congr 1
          rw [List.filter_eq_nil_iff]
          intro e he h
          simp only [decide_eq_true_eq] at h
          exact hn.1 (h ▸ he)
        · simp only [List.filter_cons, hd, decide_false, Bool.false_eq_true, if_false]
          refine ih hn.2 ?_
          rcases List.mem_cons.1 hm with h | h
          · exact absurd h.symm hd
          · exact h
    exact this _ (common_nodup _ _) hm
  have hlenmap : ∀ (L : List Char) (j : Nat), 'S' ∉ L → L.map (upd len 'S' j) = L.map len := fun L j h => map_upd_not_mem h len j
  have hTS : 'S' ∉ T := fun h => ((hTm _).1 h).2 rfl
  have hBS : 'S' ∉ onlyIn rs xs := fun h => (mem_onlyIn.1 h).2 hSx
  have hSS : 'S' ∉ onlyIn xs rs := fun h => (mem_onlyIn.1 h).2 hSr
  have hrun : addEinsum1Gather (form1 xs rs) edges r x m =
      Res.forM edges m (fun m e =>
      run1 { td := ext (T.map len), tsx := str (T.map (comb · xs x.strides)),
             tsr := str (T.map (comb · rs r.strides)), sd := ext ((onlyIn xs rs).map len),
             ss := str ((onlyIn xs rs).map (comb · xs x.strides)),
             bd := ext ((onlyIn rs xs).map len), bs := str ((onlyIn rs xs).map (comb · rs r.strides)) }
        (e.2 * comb 'S' xs x.strides) (e.1 * comb 'S' rs r.strides) r x m) := by
    unfold addEinsum1Gather
    have hT4 : T.length ≤ 4 := by omega
    rw [h1, h2, h3, h4, hgS,
      fillAxes_eq (onlyIn xs rs) xs _ x hxd hxl (fun c h => (mem_onlyIn.1 h).1) 0 (by omega),
      fillAxes_eq (onlyIn rs xs) rs _ r hrd hrl (fun c h => (mem_onlyIn.1 h).1) 0 (by omega)]
    simp only [List.length_map, decide_eq_true hS, decide_eq_true hB, decide_eq_true hT4, Res.assrt, if_true, Res.ok_bind]
    rw [transfer1_eq T xs rs _ x r hrd hxl hrl (fun c h => ((hTm c).1 h).1.1) 0 (by omega), Res.ok_bind]
    simp only [List.map_cons, List.map_nil, gatherStrides, combine_eq 'S' xs x.strides hxl, combine_eq 'S' rs r.strides hrl,
      Res.ok_bind, put, if_pos (show 0 < 4 by omega)]
    simp only [over_zero_one, over_zero_zero, hlenmap T _ hTS, hlenmap _ _ hBS, hlenmap _ _ hSS, if_true]
  rw [hrun]
  clear hrun
  set rs' := rs.filter fun d => decide (d ≠ 'S') with hrs'
  set xs' := xs.filter fun d => decide (d ≠ 'S') with hxs'
  generalize hP : ({ td := ext (T.map len), tsx := str (T.map (comb · xs x.strides)), tsr := str (T.map (comb · rs r.strides)), sd := ext ((onlyIn xs rs).map len), ss := str ((onlyIn xs rs).map (comb · xs x.strides)), bd := ext ((onlyIn rs xs).map len), bs := str ((onlyIn rs xs).map (comb · rs r.strides)) } : P1) = P
  -- one edge
  have step : ∀ (e : Nat × Nat), e.1 < n → e.2 < k → ∀ (m : Buf α) (V : (Char → Nat) → α),
      (∀ ρ, Fits (upd len 'S' n) rs ρ → r.val m (rs.map ρ) = some (V ρ)) →
      (∀ ρ, Fits (upd len 'S' k) xs ρ → x.val m (xs.map ρ) = some (X (xs.map ρ))) →
      ∃ m', run1 P (e.2 * comb 'S' xs x.strides) (e.1 * comb 'S' rs r.strides) r x m = .ok m' ∧
      (∀ ρ, Fits (upd len 'S' n) rs ρ → r.val m' (rs.map ρ) =
        some (V ρ + if e.1 = ρ 'S' then sumOver len (fun ρ => X (xs.map ρ)) (onlyIn xs rs) (upd ρ 'S' e.2) else 0)) ∧
      ∀ c, (∀ ρ, Fits (upd len 'S' n) rs ρ → c ≠ r.cell (rs.map ρ)) → m' c = m c := by
    intro e he1 he2 m V hV hX
    have fr : ∀ ρ, Fits len rs' ρ → Fits (upd len 'S' n) rs (upd ρ 'S' e.1) := by
      intro ρ h c hc
      by_cases hcS : c = 'S'
      · subst hcS; simpa [upd] using he1
      · simpa [upd, hcS] using h c (List.mem_filter.2 ⟨hc, by simpa using hcS⟩)
    have fx : ∀ ρ, Fits len xs' ρ → Fits (upd len 'S' k) xs (upd ρ 'S' e.2) := by
      intro ρ h c hc
      by_cases hcS : c = 'S'
      · subst hcS; simpa [upd] using he2
      · simpa [upd, hcS] using h c (List.mem_filter.2 ⟨hc, by simpa using hcS⟩)
    have hcr : ∀ ρ, (slice r rs 'S' e.1).cell (rs'.map ρ) = r.cell (rs.map (upd ρ 'S' e.1)) := fun ρ =>
      slice_cell r rs 'S' e.1 ρ hrl
    have hcx : ∀ ρ, (slice x xs 'S' e.2).cell (xs'.map ρ) = x.cell (xs.map (upd ρ 'S' e.2)) := fun ρ =>
      slice_cell x xs 'S' e.2 ρ hxl
    have hback : ∀ ρ ρ' : Char → Nat, rs.map (upd ρ 'S' e.1) = rs.map (upd ρ' 'S' e.1) → rs'.map ρ = rs'.map ρ' := by
      intro ρ ρ' h
      apply List.map_congr_left
      intro c hc
      have hc' := List.mem_filter.1 hc
      have := map_congr_mem h c hc'.1
      have hne : c ≠ 'S' := by simpa using hc'.2
      simpa [upd, hne] using this
    have hlr : rs'.length = (slice r rs 'S' e.1).strides.length := by
      show _ = (((rs.zip r.strides).filter _).map _).length
      rw [List.length_map]
      exact zip_filter_length 'S' rs r.strides hrl
    have hlx : xs'.length = (slice x xs 'S' e.2).strides.length := by
      show _ = (((xs.zip x.strides).filter _).map _).length
      rw [List.length_map]
      exact zip_filter_length 'S' xs x.strides hxl
    have hcombr : ∀ L : List Char, 'S' ∉ L → L.map (comb · rs' (slice r rs 'S' e.1).strides) = L.map (comb · rs r.strides) :=
      fun L hL => List.map_congr_left fun c hc => comb_filter 'S' c rs r.strides fun h => hL (h ▸ hc)
    have hcombx : ∀ L : List Char, 'S' ∉ L → L.map (comb · xs' (slice x xs 'S' e.2).strides) = L.map (comb · xs x.strides) :=
      fun L hL => List.map_congr_left fun c hc => comb_filter 'S' c xs x.strides fun h => hL (h ▸ hc)
    obtain ⟨m', g1, g2, g3⟩ := run1_spec (slice r rs 'S' e.1) (slice x xs 'S' e.2) rs' xs' T (onlyIn xs rs) (onlyIn rs xs) len
      hlr hlx
      (fun ρ ρ' h h' he => by
        rw [hcr, hcr] at he
        exact hback ρ ρ' (distinct_letters hrd hdist _ _ (fr ρ h) (fr ρ' h') he))
      (fun ρ ρ' h h' he => by
        rw [hcr, hcx] at he
        exact apart_letters hrd hxd hapart _ _ (fr ρ h) (fx ρ' h') he)
      (by
        rw [List.nodup_append]
        exact ⟨hTn, onlyIn_nodup _ _, fun a ha b hb e => (mem_onlyIn.1 hb).2 (e ▸ ((hTm a).1 ha).1.2)⟩)
      (by
        rw [List.nodup_append]
        exact ⟨hTn, onlyIn_nodup _ _, fun a ha b hb e => (mem_onlyIn.1 hb).2 (e ▸ ((hTm a).1 ha).1.1)⟩)
      (by
        intro c
        rw [List.mem_append, hTm, mem_onlyIn, hrs', List.mem_filter]
        simp only [decide_eq_true_eq]
        constructor
        · rintro (h | h)
          · exact ⟨h.1.1, h.2⟩
          · exact ⟨h.1, fun e => h.2 (e ▸ hSx)⟩
        · intro h
          tauto)
      (by
        intro c
        rw [List.mem_append, hTm, mem_onlyIn, hxs', List.mem_filter]
        simp only [decide_eq_true_eq]
        constructor
        · rintro (h | h)
          · exact ⟨h.1.2, h.2⟩
          · exact ⟨h.1, fun e => h.2 (e ▸ hSr)⟩
        · intro h
          tauto)
      (by omega) hS hB
      (fun c hc => by
        have := (List.getElem?_eq_some_iff.1 hc).1
        omega) m (fun ix => ((slice r rs 'S' e.1).val m ix).getD 0) (fun ix => ((slice x xs 'S' e.2).val m ix).getD 0)
      (by
        intro ρ h
        rw [View.val, hcr]
        have := hV _ (fr ρ h)
        rw [View.val] at this
        rw [this]
        rfl)
      (by
        intro ρ h
        rw [View.val, hcx]
        have := hX _ (fx ρ h)
        rw [View.val] at this
        rw [this]
        rfl)
    rw [hcombr T hTS, hcombx T hTS, hcombx _ hSS, hcombr _ hBS, hP] at g1
    refine ⟨m', ?_, ?_, ?_⟩
    · rw [← g1]
      exact run1_shift P _ _ r x (slice r rs 'S' e.1) (slice x xs 'S' e.2) rfl rfl m
    · intro ρ hρ
      have hρ' : Fits len rs' ρ := by
        intro c hc
        have hc' := List.mem_filter.1 hc
        have hne : c ≠ 'S' := by simpa using hc'.2
        simpa [upd, hne] using hρ c hc'.1
      by_cases he : e.1 = ρ 'S'
      · rw [if_pos he]
        have hup : upd ρ 'S' e.1 = ρ := by rw [he, upd_self]
        have := g2 ρ hρ'
        rw [View.val, hcr, hup] at this
        rw [View.val, this]
        have e0 : (slice r rs 'S' e.1).val m (rs'.map ρ) = some (V ρ) := by
          rw [View.val, hcr, hup]
          exact hV ρ hρ
        simp only [e0, Option.getD_some]
        congr 2
        have hsub := sumOver_shift len 'S' e.2 (fun ρ => X (xs.map ρ)) (onlyIn xs rs) hSS ρ
        rw [hsub]
        apply sumOver_congr
        intro σ h1 h2
        have hσ : Fits len xs' σ := by
          intro c hc
          have hc' := List.mem_filter.1 hc
          have hne : c ≠ 'S' := by simpa using hc'.2
          by_cases hcr' : c ∈ rs
          · rw [h2 c fun h => (mem_onlyIn.1 h).2 hcr']
            exact hρ' c (List.mem_filter.2 ⟨hcr', hc'.2⟩)
          · exact h1 c (mem_onlyIn.2 ⟨hc'.1, hcr'⟩)
        have := hX _ (fx σ hσ)
        rw [View.val] at this
        simp only [View.val, hcx, this, Option.getD_some]
      · rw [if_neg he, add_zero, ← hV ρ hρ]
        apply g3
        intro σ hσ h
        rw [hcr] at h
        have := distinct_letters hrd hdist _ _ hρ (fr σ hσ) h
        have := map_congr_mem this 'S' hSr
        simp [upd] at this
        exact he this.symm
    · intro c hc
      apply g3
      intro ρ hρ
      rw [hcr]
      exact hc _ (fr ρ hρ)
  clear h1 h2 h3 h4
  induction edges generalizing m V with
  | nil => exact ⟨m, rfl, fun ρ hρ => by simp [hR ρ hρ], fun _ _ => rfl⟩
  | cons e es ih =>
    obtain ⟨he1, he2⟩ := hed e (by simp)
    obtain ⟨m1, g1, g2, g3⟩ := step e he1 he2 m V hR hX
    obtain ⟨m2, k1, k2, k3⟩ := ih (fun e he => hed e (by simp [he])) m1 _ g2 (by
      intro ρ hρ
      rw [← hX ρ hρ]
      exact g3 _ fun σ hσ e => hapart _ _ (by rw [hrd]; exact inRange_map hσ) (by rw [hxd]; exact inRange_map hρ) e.symm)
    refine ⟨m2, ?_, ?_, ?_⟩
    · rw [Res.forM_cons, g1, Res.ok_bind, k1]
    · intro ρ hρ
      rw [k2 ρ hρ, add_assoc]
      congr 2
      by_cases h : e.1 = ρ 'S'
      · simp [h]
      · simp [h]
    · intro c hc
      rw [k3 c hc, g3 c hc]

/-- "Sik->bSi" with four sources, three targets and five edges. -/
example : '_' ∉ "Sik".toList ∧ '_' ∉ "bSi".toList ∧ 'S' ∈ "Sik".toList ∧ 'S' ∈ "bSi".toList ∧
    (⟨0, [2, 3, 2], [6, 2, 1]⟩ : View).dims = "bSi".toList.map (upd (fun _ => 2) 'S' 3) ∧
    (⟨12, [4, 2, 2], [4, 2, 1]⟩ : View).dims = "Sik".toList.map (upd (fun _ => 2) 'S' 4) ∧
    (⟨0, [2, 3, 2], [6, 2, 1]⟩ : View).WF ∧ (⟨12, [4, 2, 2], [4, 2, 1]⟩ : View).WF ∧
    (⟨0, [2, 3, 2], [6, 2, 1]⟩ : View).Distinct ∧ (⟨0, [2, 3, 2], [6, 2, 1]⟩ : View).Apart ⟨12, [4, 2, 2], [4, 2, 1]⟩ ∧
    (onlyIn "Sik".toList "bSi".toList) = ['k'] ∧ (onlyIn "bSi".toList "Sik".toList) = ['b'] ∧
    ((common "bSi".toList "Sik".toList).filter (· ≠ 'S')) = ['i'] ∧
    ∀ e ∈ [(0, 1), (0, 3), (2, 2), (2, 2), (1, 0)], e.1 < 3 ∧ e.2 < 4 := by
  decide

/-- `operator()(x,gmap)` never gets to the computation: whenever a gather letter is present and the extents of `x`
are consistent, it indexes a vector of length 2 by 2. -/
theorem C86_operator_fails (xs rs : List Char) (hx : '_' ∉ xs) (hr : '_' ∉ rs) (hSx : 'S' ∈ xs) (hSr : 'S' ∈ rs)
    (len : Char → Nat) (nIn : Nat) :
    resultDims1Gather (form1 xs rs) nIn (xs.map len) ((onlyIn rs xs).map len) = .ub := by
  unfold resultDims1Gather
  rw [C24_result_dims xs rs hx hr len, Res.ok_bind]
  have hg : (form1 xs rs).gathers ≠ [] := by
    rw [(C23_groups xs rs hx hr).2.1]
    intro h
    rw [List.map_eq_nil_iff, List.filter_eq_nil_iff] at h
    exact h 'S' (mem_common.2 ⟨hSr, hSx⟩) (by simp)
  cases e : (form1 xs rs).gathers with
  | nil => exact absurd e hg
  | cons p l => rfl

end Einsum
end Cnine
