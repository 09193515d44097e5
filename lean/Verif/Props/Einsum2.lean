import Verif.Lemmas.Einsum2Pass

/-! # C27, C28, C29: two-operand einsum -/

namespace Cnine
namespace Einsum

variable {α : Type}

theorem perm_contract (xs ys rs : List Char) :
    (contractLetters xs ys rs ++ (inNone xs rs ys ++ inNone ys rs xs)).Perm (onlyIn (xs ++ ys) rs ++ convs xs ys rs) := by
  rw [List.perm_ext_iff_of_nodup]
  · intro c
    simp only [List.mem_append, mem_contractLetters, mem_inNone, mem_onlyIn]
    tauto
  · refine nodup_app (contractLetters_nodup _ _ _) (nodup_app (inNone_nodup _ _ _) (inNone_nodup _ _ _) ?_) ?_
    · intro a
      simp only [mem_inNone]
      tauto
    · intro a
      simp only [List.mem_append, mem_inNone, mem_contractLetters, mem_convs]
      tauto
  · refine nodup_app (onlyIn_nodup _ _) ((inAll_nodup _ _ _).filter _) ?_
    intro a
    simp only [mem_onlyIn, mem_convs]
    tauto

/-- The forward pass, with convolution letters, fourth transfer letter allowed when the strides happen to agree. -/
theorem forward2 [NonUnitalNonAssocSemiring α] (xs ys rs : List Char) (hx : '_' ∉ xs) (hy : '_' ∉ ys) (hr : '_' ∉ rs)
    (hs : NoSpecial xs ys rs) (hf : Few xs ys rs) (len dx dr : Char → Nat)
    (hcv : ∀ c ∈ convs xs ys rs, len c ≤ dx c ∧ dr c + len c ≤ dx c + 1)
    (r x y : View) (hrd : r.dims = rs.map fun c => if c ∈ convs xs ys rs then dr c else len c)
    (hxd : x.dims = xs.map fun c => if c ∈ convs xs ys rs then dx c else len c) (hyd : y.dims = ys.map len)
    (hrw : r.WF) (hxw : x.WF) (hyw : y.WF) (hdist : r.Distinct) (hax : r.Apart x) (hay : r.Apart y)
    (h4 : ∀ c, (transferLetters xs ys rs)[3]? = some c →
      comb c xs x.strides = (if c ∈ convs xs ys rs then 0 else comb c ys y.strides) ∧
      comb c xs x.strides = comb c rs r.strides)
    (m : Buf α) (R X Y : List Nat → α)
    (hR : ∀ ix, InRange ix r.dims → r.val m ix = some (R ix))
    (hX : ∀ ix, InRange ix x.dims → x.val m ix = some (X ix))
    (hY : ∀ ix, InRange ix y.dims → y.val m ix = some (Y ix)) :
    ∃ m', addEinsum2 (form2 xs ys rs) r x y m = .ok m' ∧
      (∀ ρ, InRange (rs.map ρ) r.dims → r.val m' (rs.map ρ) = some (R (rs.map ρ) + sumOver len (fun σ =>
        X (xs.map fun c => if c ∈ convs xs ys rs then ρ c + σ c else σ c) * Y (ys.map σ))
        (onlyIn (xs ++ ys) rs ++ convs xs ys rs) ρ)) ∧
      ∀ c, (∀ ρ, InRange (rs.map ρ) r.dims → c ≠ r.cell (rs.map ρ)) → m' c = m c := by
  set lr : Char → Nat := fun c => if c ∈ convs xs ys rs then dr c else len c with hlr
  set lx : Char → Nat := fun c => if c ∈ convs xs ys rs then dx c else len c with hlx
  have hl : Sizes xs ys rs lx len lr := by
    refine ⟨?_, ?_, ?_, ?_⟩
    · intro c _ _ h; simp only [hlx, hlr, if_neg h]
    · intro c _ _ h; simp only [hlr, if_neg h]
    · intro c _ _ h
      simp only [hlx, if_neg fun hc => h (mem_convs.1 hc).1.1]
    · intro c hc
      simp only [hlx, hlr, if_pos hc]
      exact hcv c hc
  have hrl : rs.length = r.strides.length := by rw [hrw, hrd, List.length_map]
  have hxl : xs.length = x.strides.length := by rw [hxw, hxd, List.length_map]
  have hyl : ys.length = y.strides.length := by rw [hyw, hyd, List.length_map]
  have hin : ∀ (s : List Char) (l ρ : Char → Nat), InRange (s.map ρ) (s.map l) ↔ Fits l s ρ := by
    intro s l ρ
    unfold InRange Fits
    rw [List.forall₂_map_left_iff, List.forall₂_map_right_iff, List.forall₂_same]
  have hcr : ∀ c, c ∈ transferLetters xs ys rs ++ inNone rs xs ys ↔ c ∈ rs := by
    intro c
    rw [List.mem_append, mem_transferLetters hs, mem_inNone]
    tauto
  have hB : (transferLetters xs ys rs ++ inNone rs xs ys).Nodup := by
    refine nodup_app (transferLetters_nodup _ _ _) (inNone_nodup _ _ _) ?_
    intro a
    rw [mem_transferLetters hs, mem_inNone]
    tauto
  have opX : Operand xs (transferLetters xs ys rs) (contractLetters xs ys rs) (inNone xs rs ys) [] (convs xs ys rs)
      lr len lx := by
    refine ⟨inNone_nodup _ _ _, hf.xsum, ?_, ?_, ?_, ?_, ?_, ?_, ?_, ?_, ?_⟩
    · intro k; rw [mem_inNone, mem_transferLetters hs]; tauto
    · intro k; rw [mem_inNone, mem_contractLetters, mem_convs]; tauto
    · intro k; rw [mem_inNone, mem_convs]; tauto
    · intro k; rw [mem_inNone, mem_transferLetters hs, mem_contractLetters, mem_convs]; tauto
    · intro k _
      rw [mem_transferLetters hs, mem_contractLetters, mem_convs]
      simp only [List.not_mem_nil, not_false_eq_true, and_true]
      tauto
    · simp
    · intro k _ _ hC
      have : k ∉ convs xs ys rs := fun h => hC (mem_contractLetters.2 (Or.inr h))
      simp only [hlx, hlr, if_neg this, le_refl]
    · intro k _ _ hZ
      simp only [hlx, if_neg hZ, le_refl]
    · intro k _ hZ
      simp only [hlx, hlr, if_pos hZ]
      exact (hcv k hZ).2
  have opY : Operand ys (transferLetters xs ys rs) (contractLetters xs ys rs) (inNone ys rs xs) (convs xs ys rs) []
      lr len len := by
    refine ⟨inNone_nodup _ _ _, hf.ysum, ?_, ?_, ?_, ?_, ?_, ?_, ?_, ?_, ?_⟩
    · intro k; rw [mem_inNone, mem_transferLetters hs]; tauto
    · intro k; rw [mem_inNone, mem_contractLetters, mem_convs]; tauto
    · simp
    · intro k; rw [mem_inNone, mem_transferLetters hs, mem_contractLetters, mem_convs]; tauto
    · intro k hk
      rw [mem_transferLetters hs, mem_contractLetters]
      simp only [List.not_mem_nil, false_iff]
      tauto
    · intro k _ h
      exact mem_contractLetters.2 (Or.inr h)
    · intro k _ _ hC
      have : k ∉ convs xs ys rs := fun h => hC (mem_contractLetters.2 (Or.inr h))
      simp only [hlr, if_neg this, le_refl]
    · intros; exact le_refl _
    · simp
  obtain ⟨m', h1, h2, h3⟩ := run2_letters r x y rs xs ys (transferLetters xs ys rs) (contractLetters xs ys rs)
    (inNone xs rs ys) (inNone ys rs xs) (inNone rs xs ys) [] (convs xs ys rs) (convs xs ys rs) [] lr lx len len hrl hxl hyl
    (distinct_letters hrd hdist) (apart_letters hrd hxd hax) (apart_letters hrd hyd hay) hB hcr (contractLetters_nodup _ _ _)
    opX opY (by
      have := hf.transfer' hs
      simp only [transferLetters, List.length_append]
      omega) (by
      have := hf.contract
      simp only [contractLetters, List.length_append]
      omega) hf.bcast
    (by
      intro c hc
      have := h4 c hc
      simpa only [tstr, List.not_mem_nil, if_false] using this)
    m R X Y (fun ρ hρ => hR _ (by rw [hrd]; exact (hin _ _ _).2 hρ)) (fun ρ hρ => hX _ (by rw [hxd]; exact (hin _ _ _).2 hρ))
    (fun ρ hρ => hY _ (by rw [hyd]; exact (hin _ _ _).2 hρ))
  refine ⟨m', ?_, ?_, ?_⟩
  · unfold addEinsum2
    rw [makeParams_eq hx hy hr hs hf hl r x y hrd hxd hyd hrw hxw hyw, Res.ok_bind, h1]
  · intro ρ hρ
    rw [hrd, hin] at hρ
    rw [h2 ρ hρ, ← sumOver_perm len _ (perm_contract xs ys rs) ?_ ρ, sumOver_append]
    · congr 2
      apply sumOver_congr
      intro κ _ _
      have e : sumOver lx (fun σ => X (xs.map fun k => if k ∈ convs xs ys rs then ρ k + σ k else σ k)) (inNone xs rs ys) κ =
          sumOver len (fun σ => X (xs.map fun k => if k ∈ convs xs ys rs then ρ k + σ k else σ k)) (inNone xs rs ys) κ := by
        apply sumOver_len_congr
        intro c hc
        simp only [hlx, if_neg fun h => (mem_inNone.1 hc).2.1 (mem_convs.1 h).1.1]
      rw [e]
      have := sumOver_prod len (fun σ => X (xs.map fun k => if k ∈ convs xs ys rs then ρ k + σ k else σ k))
        (fun σ => Y (ys.map σ)) (s := xs) (s' := ys) (fun σ σ' h => by
          dsimp only
          congr 1
          apply List.map_congr_left
          intro c hc
          rw [h c hc]) (fun σ σ' h => by
          dsimp only
          congr 1
          exact List.map_congr_left h) (inNone xs rs ys) (inNone ys rs xs) (fun c hc => (mem_inNone.1 hc).2.2)
        (fun c hc => (mem_inNone.1 hc).2.2) κ
      rw [← this]
      simp only [List.not_mem_nil, if_false]
    · exact (perm_contract xs ys rs).nodup_iff.2 (nodup_app (onlyIn_nodup _ _) ((inAll_nodup _ _ _).filter _) (by
        intro a
        simp only [mem_onlyIn, mem_convs]
        tauto))
  · intro c hc
    refine h3 c fun ρ hρ => hc ρ ?_
    rw [hrd, hin]
    exact hρ

/-! ## C27 -/

/-- Without convolution letters, every element of the result gains the sum, over all values of the letters that
are not in the result, of the products of the operands.  A fourth transfer letter is allowed only if the strides
happen to agree, because the loops use the first operand's stride for it everywhere. -/
theorem C27_add_einsum_four_partial [NonUnitalNonAssocSemiring α] (xs ys rs : List Char) (hx : '_' ∉ xs) (hy : '_' ∉ ys)
    (hr : '_' ∉ rs) (hs : NoSpecial xs ys rs) (hc : convs xs ys rs = []) (hf : Few xs ys rs) (len : Char → Nat)
    (r x y : View) (hrd : r.dims = rs.map len) (hxd : x.dims = xs.map len) (hyd : y.dims = ys.map len)
    (hrw : r.WF) (hxw : x.WF) (hyw : y.WF) (hdist : r.Distinct) (hax : r.Apart x) (hay : r.Apart y)
    (h4 : ∀ c, (transferLetters xs ys rs)[3]? = some c →
      comb c xs x.strides = comb c ys y.strides ∧ comb c xs x.strides = comb c rs r.strides)
    (m : Buf α) (R X Y : List Nat → α)
    (hR : ∀ ix, InRange ix r.dims → r.val m ix = some (R ix))
    (hX : ∀ ix, InRange ix x.dims → x.val m ix = some (X ix))
    (hY : ∀ ix, InRange ix y.dims → y.val m ix = some (Y ix)) :
    ∃ m', addEinsum2 (form2 xs ys rs) r x y m = .ok m' ∧
      (∀ ρ, InRange (rs.map ρ) r.dims → r.val m' (rs.map ρ) = some (R (rs.map ρ) +
        sumOver len (fun σ => X (xs.map σ) * Y (ys.map σ)) (onlyIn (xs ++ ys) rs) ρ)) ∧
      ∀ c, (∀ ρ, InRange (rs.map ρ) r.dims → c ≠ r.cell (rs.map ρ)) → m' c = m c := by
  have := forward2 xs ys rs hx hy hr hs hf len len len (by simp [hc]) r x y (by simpa [hc] using hrd)
    (by simpa [hc] using hxd) hyd hrw hxw hyw hdist hax hay (by simpa [hc] using h4) m R X Y hR hX hY
  simpa only [hc, List.not_mem_nil, if_false, List.append_nil] using this

/-- The same with at most three transfer letters, whatever the strides. -/
theorem C27_add_einsum [NonUnitalNonAssocSemiring α] (xs ys rs : List Char) (hx : '_' ∉ xs) (hy : '_' ∉ ys)
    (hr : '_' ∉ rs) (hs : NoSpecial xs ys rs) (hc : convs xs ys rs = []) (hf : Few xs ys rs)
    (h3 : (common rs (xs ++ ys)).length ≤ 3) (len : Char → Nat)
    (r x y : View) (hrd : r.dims = rs.map len) (hxd : x.dims = xs.map len) (hyd : y.dims = ys.map len)
    (hrw : r.WF) (hxw : x.WF) (hyw : y.WF) (hdist : r.Distinct) (hax : r.Apart x) (hay : r.Apart y)
    (m : Buf α) (R X Y : List Nat → α)
    (hR : ∀ ix, InRange ix r.dims → r.val m ix = some (R ix))
    (hX : ∀ ix, InRange ix x.dims → x.val m ix = some (X ix))
    (hY : ∀ ix, InRange ix y.dims → y.val m ix = some (Y ix)) :
    ∃ m', addEinsum2 (form2 xs ys rs) r x y m = .ok m' ∧
      (∀ ρ, InRange (rs.map ρ) r.dims → r.val m' (rs.map ρ) = some (R (rs.map ρ) +
        sumOver len (fun σ => X (xs.map σ) * Y (ys.map σ)) (onlyIn (xs ++ ys) rs) ρ)) ∧
      ∀ c, (∀ ρ, InRange (rs.map ρ) r.dims → c ≠ r.cell (rs.map ρ)) → m' c = m c :=
  C27_add_einsum_four_partial xs ys rs hx hy hr hs hc hf len r x y hrd hxd hyd hrw hxw hyw hdist hax hay
    (fun c hc => by
      have := (List.getElem?_eq_some_iff.1 hc).1
      rw [transferLetters_length hs] at this
      omega) m R X Y hR hX hY

/-- "ikb,kja->ijc": `k` contracted, `b` and `a` summed, `c` broadcast, with strided views. -/
example : '_' ∉ "ikb".toList ∧ '_' ∉ "kja".toList ∧ '_' ∉ "ijc".toList ∧
    NoSpecial "ikb".toList "kja".toList "ijc".toList ∧ convs "ikb".toList "kja".toList "ijc".toList = [] ∧
    Few "ikb".toList "kja".toList "ijc".toList ∧
    (common "ijc".toList ("ikb".toList ++ "kja".toList)).length ≤ 3 ∧
    (⟨0, [2, 2, 2], [4, 2, 1]⟩ : View).Distinct ∧ (⟨0, [2, 2, 2], [4, 2, 1]⟩ : View).Apart ⟨8, [2, 2, 2], [1, 2, 4]⟩ ∧
    (⟨0, [2, 2, 2], [4, 2, 1]⟩ : View).Apart ⟨16, [2, 2, 2], [0, 2, 4]⟩ ∧
    onlyIn ("ikb".toList ++ "kja".toList) "ijc".toList = ['k', 'b', 'a'] :=
  ⟨by decide, by decide, by decide, ⟨by decide, by decide⟩, by decide,
    ⟨by decide, by decide, by decide, by decide, by decide⟩, by decide, by decide, by decide, by decide, by decide⟩

/-- Four transfer letters, "ijkl,m->lkji" with a 2×1×1×2 operand `1 2 3 4` and `y = 1`: element (0,0,0,1) of the result
should be 3 and stays 0. -/
theorem C27_four_transfers_fails :
    ∃ (r x y : View) (m m' : Buf Int), r.dims = [2, 1, 1, 2] ∧ x.dims = [2, 1, 1, 2] ∧ y.dims = [1] ∧ r.WF ∧ x.WF ∧ y.WF ∧
      r.Distinct ∧ r.Apart x ∧ r.Apart y ∧ x.val m [1, 0, 0, 0] = some 3 ∧ y.val m [0] = some 1 ∧
      r.val m [0, 0, 0, 1] = some 0 ∧
      addEinsum2 (form2 "ijkl".toList "m".toList "lkji".toList) r x y m = .ok m' ∧ r.val m' [0, 0, 0, 1] = some 0 :=
  ⟨⟨0, [2, 1, 1, 2], [2, 2, 2, 1]⟩, ⟨6, [2, 1, 1, 2], [2, 2, 2, 1]⟩, ⟨10, [1], [1]⟩,
    Buf.ofList [0, 0, 0, 0, 0, 0, 1, 2, 3, 4, 1, 1, 1], _, rfl, rfl, rfl, by decide, by decide, by decide, by decide,
    by decide, by decide, by decide, by decide, by decide, rfl, by decide⟩

/-- A letter `S` shared by the result and one operand only is parsed into a list that no pass reads: with "S,a->S" only the
first element of the result is computed. -/
theorem C27_gather_fails :
    ∃ (r x y : View) (m m' : Buf Int), r.dims = [2] ∧ x.dims = [2] ∧ y.dims = [1] ∧ r.WF ∧ x.WF ∧ y.WF ∧
      r.Distinct ∧ r.Apart x ∧ r.Apart y ∧ x.val m [1] = some 5 ∧ y.val m [0] = some 1 ∧ r.val m [1] = some 0 ∧
      addEinsum2 (form2 "S".toList "a".toList "S".toList) r x y m = .ok m' ∧ r.val m' [1] = some 0 :=
  ⟨⟨0, [2], [1]⟩, ⟨2, [2], [1]⟩, ⟨4, [1], [1]⟩, Buf.ofList [0, 0, 4, 5, 1], _, rfl, rfl, rfl, by decide, by decide,
    by decide, by decide, by decide, by decide, by decide, by decide, by decide, rfl, by decide⟩

/-- The same for `*` in all three strings. -/
theorem C27_triple_fails :
    ∃ (r x y : View) (m m' : Buf Int), r.dims = [2] ∧ x.dims = [2] ∧ y.dims = [2] ∧ r.WF ∧ x.WF ∧ y.WF ∧
      r.Distinct ∧ r.Apart x ∧ r.Apart y ∧ x.val m [1] = some 5 ∧ y.val m [1] = some 7 ∧ r.val m [1] = some 0 ∧
      addEinsum2 (form2 "*".toList "*".toList "*".toList) r x y m = .ok m' ∧ r.val m' [1] = some 0 :=
  ⟨⟨0, [2], [1]⟩, ⟨2, [2], [1]⟩, ⟨4, [2], [1]⟩, Buf.ofList [0, 0, 4, 5, 6, 7], _, rfl, rfl, rfl, by decide, by decide,
    by decide, by decide, by decide, by decide, by decide, by decide, by decide, rfl, by decide⟩

/-- More letters of a kind than there are loops: all three passes throw. -/
theorem C27_too_many [NonUnitalNonAssocSemiring α] (xs ys rs : List Char) (hx : '_' ∉ xs) (hy : '_' ∉ ys) (hr : '_' ∉ rs)
    (hs : NoSpecial xs ys rs) (h : ¬ Few xs ys rs) (r x y : View) (m : Buf α) :
    addEinsum2 (form2 xs ys rs) r x y m = .throw ∧ addEinsum2Back0 (form2 xs ys rs) x r y m = .throw ∧
    addEinsum2Back1 (form2 xs ys rs) y r x m = .throw := by
  have key : (form2 xs ys rs).check = .throw := by
    obtain ⟨a1, a2, a3, a4, a5, a6, a7, a8, a9⟩ := form2_groups hx hy hr hs
    have hT : (plain3 xs ys rs).length + (inFirst rs xs ys).length + (inFirst rs ys xs).length + (convs xs ys rs).length =
        (common rs (xs ++ ys)).length := by
      rw [← transferLetters_length hs]
      simp only [transferLetters, List.length_append]
      omega
    unfold Form2.check
    rw [a1, a2, a3, a4, a5, a6, a7, a8, a9]
    simp only [List.length_map, hT, Res.assrt]
    by_cases k1 : (inNone xs rs ys).length ≤ 3
    · by_cases k2 : (inNone ys rs xs).length ≤ 3
      · by_cases k3 : (inNone rs xs ys).length ≤ 3
        · by_cases k4 : (common rs (xs ++ ys)).length ≤ 4
          · have k5 : ¬ (inFirst xs ys rs).length + (convs xs ys rs).length ≤ 3 := fun k5 => h ⟨k1, k2, k3, k4, k5⟩
            simp only [k1, k2, k3, k4, k5, decide_true, decide_false, if_true, Res.ok_bind]
            rfl
          · simp only [k1, k2, k3, k4, decide_true, decide_false, if_true, Res.ok_bind]
            rfl
        · simp only [k1, k2, k3, decide_true, decide_false, if_true, Res.ok_bind]
          rfl
      · simp only [k1, k2, decide_true, decide_false, if_true, Res.ok_bind]
        rfl
    · simp only [k1, decide_false]
      rfl
  unfold addEinsum2 addEinsum2Back0 addEinsum2Back1 makeParams makeParamsBack0 makeParamsBack1
  rw [key]
  exact ⟨rfl, rfl, rfl⟩

example : ¬ Few "ij".toList "kl".toList "ijklb".toList ∨ ¬ Few "abcd".toList "i".toList "i".toList := by
  right
  intro h
  exact absurd h.xsum (by decide)

theorem foldl_set_map {β : Type _} (c : Char) (v : β) (rs : List Char) (f : Char → β) :
    (positions c rs).foldl (fun d j => d.set j v) (rs.map f) = rs.map fun k => if k = c then v else f k := by
  apply List.ext_getElem?
  intro i
  have h : ∀ (ps : List Nat) (d : List β),
      (ps.foldl (fun d j => d.set j v) d)[i]? = if i ∈ ps ∧ i < d.length then some v else d[i]? := by
    intro ps
    induction ps with
    | nil => simp
    | cons p ps ih =>
      intro d
      rw [List.foldl_cons, ih, List.length_set, List.getElem?_set]
      by_cases e : p = i
      · subst e
        by_cases hl : p < d.length <;> simp [hl]
      · simp [e, Ne.symm e]
  rw [h, List.getElem?_map, List.getElem?_map, List.length_map]
  cases e : rs[i]? with
  | none =>
    have := List.getElem?_eq_none_iff.1 e
    simp; omega
  | some k =>
    obtain ⟨hi, e'⟩ := List.getElem?_eq_some_iff.1 e
    simp only [mem_positions, e, hi, and_true, Option.map_some, Option.some.injEq]
    by_cases hk : k = c <;> simp [hk]

theorem setConv_eq (xs ys rs : List Char) (lx ly : Char → Nat) (V : List Char) (hV : ∀ c ∈ V, c ∈ xs ∧ c ∈ ys)
    (g : Char → Option Int) :
    setConv (xs.map lx) (ys.map ly) (V.map fun c => (positions c xs, positions c ys, positions c rs)) (rs.map g) =
      .ok (rs.map fun c => if c ∈ V then some ((lx c : Int) - (ly c : Int) + 1) else g c) := by
  induction V generalizing g with
  | nil => simp [setConv]
  | cons c V ih =>
    simp only [List.map_cons, setConv]
    rw [dimAt_eq c xs lx (hV c (by simp)).1, Res.ok_bind, dimAt_eq c ys ly (hV c (by simp)).2, Res.ok_bind]
    rw [foldl_set_map, ih (fun c hc => hV c (by simp [hc]))]
    congr 1
    apply List.map_congr_left
    intro k _
    by_cases h1 : k ∈ V
    · simp [h1]
    · by_cases h2 : k = c
      · subst h2; simp [h1]
      · simp [h1, h2]

/-- `operator()`: on each axis the result gets the extent of its letter, and `dim(x) - dim(y) + 1` for a convolution
letter. -/
theorem C27_result_dims (xs ys rs : List Char) (hx : '_' ∉ xs) (hy : '_' ∉ ys) (hr : '_' ∉ rs) (len dy : Char → Nat) :
    resultDims2 (form2 xs ys rs) (xs.map len) (ys.map fun c => if c ∈ convs xs ys rs then dy c else len c)
      ((inNone rs xs ys).map len) =
    .ok (rs.map fun c => if c ∈ convs xs ys rs then some ((len c : Int) - (dy c : Int) + 1) else some (len c : Int)) := by
  obtain ⟨hnd, hxm, hrm, hym, h1, h2, h3, h4, h5⟩ := form2_lists xs ys rs hx hy hr
  obtain ⟨-, -, -, -, -, -, -, -, a9, -, -⟩ := C26_groups xs ys rs hx hy hr
  dsimp only at *
  have a9 : (form2 xs ys rs).conv = (convs xs ys rs).map fun c => (positions c xs, positions c ys, positions c rs) := a9
  have hcv : ∀ c ∈ ys, (convLetter xs ys rs c = true ↔ c ∈ convs xs ys rs) := by
    intro c _
    rw [mem_convs]
    simp only [convLetter, isConv, Bool.and_eq_true, Bool.or_eq_true, beq_iff_eq, decide_eq_true_eq, List.mem_cons,
      List.not_mem_nil, or_false]
    tauto
  unfold resultDims2
  rw [h1, h2, h3, h4, h5, a9]
  generalize slots xs ys rs (order xs ys rs) = L at *
  set lk : Char × Bool → Nat := fun k => if k.2 then dy k.1 else len k.1 with hlk
  have h0 : List.replicate L.length (none : Option Nat) = tab L [] lk := by
    simp [tab, ← List.map_const']
  have ex : xs.map len = (xs.map fun c => (c, false)).map lk := by
    rw [List.map_map]; rfl
  have ey : (ys.map fun c => if c ∈ convs xs ys rs then dy c else len c) =
      (ys.map fun c => (c, convLetter xs ys rs c)).map lk := by
    rw [List.map_map]
    apply List.map_congr_left
    intro c hc
    simp only [Function.comp, hlk, hcv c hc]
  have eb : (inNone rs xs ys).map len = ((inNone rs xs ys).map fun c => (c, false)).map lk := by
    rw [List.map_map]; rfl
  have s1 := dimsById_tab L hnd lk (xs.map fun c => (c, false)) [] (by simpa using hxm)
  have s2 := dimsById_tab L hnd lk (ys.map fun c => (c, convLetter xs ys rs c)) ([] ++ xs.map fun c => (c, false)) (by
    simpa using hym)
  have s3 := setBcast_tab L hnd lk ((inNone rs xs ys).map fun c => (c, false))
    ([] ++ (xs.map fun c => (c, false)) ++ ys.map fun c => (c, convLetter xs ys rs c)) (by
    intro k hk
    obtain ⟨c, hc, rfl⟩ := List.mem_map.1 hk
    exact hrm c (mem_inNone.1 hc).1)
  rw [← ex] at s1
  rw [← ey] at s2
  rw [← eb] at s3
  rw [h0, s1]
  simp only [List.length_map, decide_true, Res.assrt, if_true, Res.ok_bind, s2, s3]
  have er : ∀ k : Nat → Option Int, (List.map L.idxOf (rs.map fun c => (c, false))).map k = rs.map fun c => k (L.idxOf (c, false)) := by
    intro k; rw [List.map_map, List.map_map]; rfl
  rw [er, setConv_eq xs ys rs len (fun c => if c ∈ convs xs ys rs then dy c else len c) (convs xs ys rs)
    (fun c hc => (mem_convs.1 hc).1.2)]
  congr 1
  apply List.map_congr_left
  intro c hc
  by_cases hv : c ∈ convs xs ys rs
  · simp only [if_pos hv]
  · simp only [if_neg hv]
    have hi := List.idxOf_lt_length_of_mem (hrm c hc)
    have hm : (c, false) ∈ [] ++ (xs.map fun c => (c, false)) ++ (ys.map fun c => (c, convLetter xs ys rs c)) ++
        (inNone rs xs ys).map fun c => (c, false) := by
      simp only [List.nil_append, List.mem_append, List.mem_map, Prod.mk.injEq, and_true, exists_eq_right, mem_inNone]
      by_cases h1 : c ∈ xs
      · exact Or.inl (Or.inl h1)
      · by_cases h2 : c ∈ ys
        · refine Or.inl (Or.inr ⟨c, h2, rfl, ?_⟩)
          rw [Bool.eq_false_iff]
          exact fun h => hv ((hcv c h2).1 h)
        · exact Or.inr ⟨hc, h1, h2⟩
    simp only [tab, List.getD_eq_getElem?_getD, List.getElem?_map, List.getElem?_eq_getElem hi]
    rw [Option.map_some, Option.getD_some, List.getElem_idxOf, if_pos hm]
    rfl

/-- "Uik,Vkj->Uibj" has no convolution letter, "Ui,Uj->Uij" has: 5-3+1=3. -/
example : resultDims2 (form2 "Ui".toList "Uj".toList "Uijb".toList) [5, 2] [3, 4] [7] =
    .ok [some 3, some 2, some 4, some 7] := by decide

/-! ## C28 -/

theorem back0_groups {xs ys rs : List Char} (hs : NoSpecial xs ys rs) (hc : convs xs ys rs = []) :
    Groups xs rs ys [] [] (inFirst rs xs ys) (inFirst xs ys rs) [] (plain3 xs ys rs) [] (inFirst rs ys xs)
      (inNone rs xs ys) (inNone ys rs xs) (inNone xs rs ys) where
  mA c := by rw [List.nil_append, mem_inFirst]; tauto
  mD c := by rw [List.append_nil, mem_inFirst]; simp
  mE c := by
    constructor
    · intro h; have := (mem_plain3.1 h).1; exact ⟨⟨this.2.1, this.1, this.2.2⟩, by simp⟩
    · rintro ⟨⟨h1, h2, h3⟩, -⟩
      rcases hs.mem_all h2 h1 h3 with h | h
      · rw [hc] at h; simp at h
      · exact h
  mG c := by rw [List.nil_append, mem_inFirst]; simp
  mV := by simp
  mSP c := mem_inNone
  mSQ c := by rw [mem_inNone]; tauto
  mB c := mem_inNone
  nA := inFirst_nodup _ _ _
  nD := by rw [List.append_nil]; exact inFirst_nodup _ _ _
  nE := (inAll_nodup _ _ _).filter _
  nG := inFirst_nodup _ _ _
  nSP := inNone_nodup _ _ _
  nSQ := inNone_nodup _ _ _
  nB := inNone_nodup _ _ _
  nV := List.nodup_nil

theorem back1_groups {xs ys rs : List Char} (hs : NoSpecial xs ys rs) :
    Groups ys rs xs (convs xs ys rs) (inFirst rs ys xs) [] (convs xs ys rs) (inFirst xs ys rs) (plain3 xs ys rs)
      (inFirst rs xs ys) (convs xs ys rs) (inNone rs xs ys) (inNone xs rs ys) (inNone ys rs xs) where
  mA c := by rw [List.append_nil, mem_inFirst]; tauto
  mD c := by rw [List.mem_append, mem_inFirst]; tauto
  mE c := by
    constructor
    · intro h; have := (mem_plain3.1 h).1; exact ⟨⟨this.2.2, this.1, this.2.1⟩, plain3_not_conv h⟩
    · rintro ⟨⟨h1, h2, h3⟩, h4⟩
      exact (hs.mem_all h2 h3 h1).resolve_left h4
  mG c := by rw [List.mem_append, mem_inFirst]
  mV c hc := by have := (mem_convs.1 hc).1; tauto
  mSP c := by rw [mem_inNone]; tauto
  mSQ c := by rw [mem_inNone]; tauto
  mB c := mem_inNone
  nA := by rw [List.append_nil]; exact inFirst_nodup _ _ _
  nD := nodup_app ((inAll_nodup _ _ _).filter _) (inFirst_nodup _ _ _) (by
    intro a h; rw [mem_inFirst]; have := (mem_convs.1 h).1; tauto)
  nE := (inAll_nodup _ _ _).filter _
  nG := nodup_app (inFirst_nodup _ _ _) ((inAll_nodup _ _ _).filter _) (by
    intro a; rw [mem_inFirst]; intro h h'; exact h.2.2 (mem_convs.1 h').1.2.2)
  nSP := inNone_nodup _ _ _
  nSQ := inNone_nodup _ _ _
  nB := inNone_nodup _ _ _
  nV := (inAll_nodup _ _ _).filter _

theorem Groups.T_length {os ps qs V A1 A2 D1 D2 E G1 G2 SP SQ B : List Char}
    (h : Groups os ps qs V A1 A2 D1 D2 E G1 G2 SP SQ B) :
    (A1 ++ A2 ++ D1 ++ D2 ++ E).length = (common os (ps ++ qs)).length := by
  apply List.Perm.length_eq
  rw [List.perm_ext_iff_of_nodup h.nT (common_nodup _ _)]
  intro c
  rw [h.T, mem_common, List.mem_append]

/-- The backward pass into the first operand: every element of the gradient of x gains the sum, over all values of the
letters that are not in x, of the gradient of r times y.  At most three letters of x may be shared with r or y, and at
most three letters may be shared by r and y only. -/
theorem C28_back0_partial [NonUnitalNonAssocSemiring α] (xs ys rs : List Char) (hx : '_' ∉ xs) (hy : '_' ∉ ys)
    (hr : '_' ∉ rs) (hs : NoSpecial xs ys rs) (hc : convs xs ys rs = []) (hf : Few xs ys rs)
    (h3 : (common xs (rs ++ ys)).length ≤ 3) (hC3 : (inFirst rs ys xs).length ≤ 3) (len : Char → Nat)
    (r x y : View) (hrd : r.dims = rs.map len) (hxd : x.dims = xs.map len) (hyd : y.dims = ys.map len)
    (hrw : r.WF) (hxw : x.WF) (hyw : y.WF) (hdist : x.Distinct) (hax : x.Apart r) (hay : x.Apart y)
    (m : Buf α) (G X Y : List Nat → α)
    (hG : ∀ ix, InRange ix r.dims → r.val m ix = some (G ix))
    (hX : ∀ ix, InRange ix x.dims → x.val m ix = some (X ix))
    (hY : ∀ ix, InRange ix y.dims → y.val m ix = some (Y ix)) :
    ∃ m', addEinsum2Back0 (form2 xs ys rs) x r y m = .ok m' ∧
      (∀ ρ, InRange (xs.map ρ) x.dims → x.val m' (xs.map ρ) = some (X (xs.map ρ) +
        sumOver len (fun σ => G (rs.map σ) * Y (ys.map σ)) (onlyIn (rs ++ ys) xs) ρ)) ∧
      ∀ c, (∀ ρ, InRange (xs.map ρ) x.dims → c ≠ x.cell (xs.map ρ)) → m' c = m c := by
  have g := back0_groups hs hc
  have hl := g.T_length
  obtain ⟨a1, a2, a3, a4, a5, a6, a7, a8, a9⟩ := form2_groups hx hy hr hs
  have := pass2 g hf.bcast hf.ysum hf.xsum (by omega) (by simpa using hC3) len len len (by simp) x r y hxd
    (by simpa using hrd) (by simpa using hyd) hxw hrw hyw hdist hax hay
    (fun c hc => absurd (List.getElem?_eq_some_iff.1 hc).1 (by omega)) m X G Y hX hG hY
  simp only [List.not_mem_nil, if_false, List.append_nil] at this
  convert this using 4
  unfold addEinsum2Back0 makeParamsBack0
  rw [check_ok hx hy hr hs hf, a1, a2, a3, a4, a5, a6, a7, a9, Res.ok_bind, hc]
  simp only [List.map_map, Function.comp_def, List.map_nil, List.length_nil, Nat.lt_irrefl, if_false, gparams,
    P2.transfer2, P2.transfer1, P2.contract, P2.convolveBack, Res.ok_bind]

/-- The backward pass into the second operand, with convolution letters: for a convolution letter `y_j` gains the sum of
`r_i x_(i+j)`. -/
theorem C28_back1_conv_partial [NonUnitalNonAssocSemiring α] (xs ys rs : List Char) (hx : '_' ∉ xs) (hy : '_' ∉ ys)
    (hr : '_' ∉ rs) (hs : NoSpecial xs ys rs) (hf : Few xs ys rs)
    (h3 : (common ys (rs ++ xs)).length ≤ 3) (hC3 : (inFirst rs xs ys).length + (convs xs ys rs).length ≤ 3)
    (len dx dr : Char → Nat) (hcv : ∀ c ∈ convs xs ys rs, dr c ≤ dx c ∧ dr c + len c ≤ dx c + 1)
    (r x y : View) (hrd : r.dims = rs.map fun c => if c ∈ convs xs ys rs then dr c else len c)
    (hxd : x.dims = xs.map fun c => if c ∈ convs xs ys rs then dx c else len c) (hyd : y.dims = ys.map len)
    (hrw : r.WF) (hxw : x.WF) (hyw : y.WF) (hdist : y.Distinct) (hay : y.Apart r) (hax : y.Apart x)
    (m : Buf α) (G X Y : List Nat → α)
    (hG : ∀ ix, InRange ix r.dims → r.val m ix = some (G ix))
    (hX : ∀ ix, InRange ix x.dims → x.val m ix = some (X ix))
    (hY : ∀ ix, InRange ix y.dims → y.val m ix = some (Y ix)) :
    ∃ m', addEinsum2Back1 (form2 xs ys rs) y r x m = .ok m' ∧
      (∀ ρ, InRange (ys.map ρ) y.dims → y.val m' (ys.map ρ) = some (Y (ys.map ρ) +
        sumOver (fun c => if c ∈ convs xs ys rs then dr c else len c) (fun σ =>
          G (rs.map σ) * X (xs.map fun c => if c ∈ convs xs ys rs then ρ c + σ c else σ c))
          (onlyIn (rs ++ xs) ys ++ convs xs ys rs) ρ)) ∧
      ∀ c, (∀ ρ, InRange (ys.map ρ) y.dims → c ≠ y.cell (ys.map ρ)) → m' c = m c := by
  have g := back1_groups hs
  have hl := g.T_length
  obtain ⟨a1, a2, a3, a4, a5, a6, a7, a8, a9⟩ := form2_groups hx hy hr hs
  have := pass2 g hf.bcast hf.xsum hf.ysum (by omega) (by simpa using hC3) len dr dx
    (fun c hc => ⟨(hcv c hc).1, by have := (hcv c hc).2; omega⟩) y r x hyd
    hrd hxd hyw hrw hxw hdist hay hax
    (fun c hc => absurd (List.getElem?_eq_some_iff.1 hc).1 (by omega)) m Y G X hY hG hX
  convert this using 4
  unfold addEinsum2Back1 makeParamsBack1
  rw [check_ok hx hy hr hs hf, a1, a2, a3, a4, a5, a6, a7, a9, Res.ok_bind]
  simp only [List.map_map, Function.comp_def, List.map_nil, gparams, P2.transfer1, Res.ok_bind]

/-- The backward pass into the second operand, without convolution letters. -/
theorem C28_back1_partial [NonUnitalNonAssocSemiring α] (xs ys rs : List Char) (hx : '_' ∉ xs) (hy : '_' ∉ ys)
    (hr : '_' ∉ rs) (hs : NoSpecial xs ys rs) (hc : convs xs ys rs = []) (hf : Few xs ys rs)
    (h3 : (common ys (rs ++ xs)).length ≤ 3) (hC3 : (inFirst rs xs ys).length ≤ 3) (len : Char → Nat)
    (r x y : View) (hrd : r.dims = rs.map len) (hxd : x.dims = xs.map len) (hyd : y.dims = ys.map len)
    (hrw : r.WF) (hxw : x.WF) (hyw : y.WF) (hdist : y.Distinct) (hay : y.Apart r) (hax : y.Apart x)
    (m : Buf α) (G X Y : List Nat → α)
    (hG : ∀ ix, InRange ix r.dims → r.val m ix = some (G ix))
    (hX : ∀ ix, InRange ix x.dims → x.val m ix = some (X ix))
    (hY : ∀ ix, InRange ix y.dims → y.val m ix = some (Y ix)) :
    ∃ m', addEinsum2Back1 (form2 xs ys rs) y r x m = .ok m' ∧
      (∀ ρ, InRange (ys.map ρ) y.dims → y.val m' (ys.map ρ) = some (Y (ys.map ρ) +
        sumOver len (fun σ => G (rs.map σ) * X (xs.map σ)) (onlyIn (rs ++ xs) ys) ρ)) ∧
      ∀ c, (∀ ρ, InRange (ys.map ρ) y.dims → c ≠ y.cell (ys.map ρ)) → m' c = m c := by
  have := C28_back1_conv_partial xs ys rs hx hy hr hs hf h3 (by simpa [hc] using hC3) len len len (by simp [hc]) r x y
    (by simpa [hc] using hrd) (by simpa [hc] using hxd) hyd hrw hxw hyw hdist hay hax m G X Y hG hX hY
  simpa only [hc, List.not_mem_nil, if_false, List.append_nil] using this

/-- The inner product with a tensor computed by a pass that started from zero. -/
theorem inner_pass [CommSemiring α] (s t : List Char) (len : Char → Nat) (v : View) (hvd : v.dims = s.map len)
    (hd : v.Distinct) (m m' : Buf α) (f : (Char → Nat) → α) (hz : ∀ ix, InRange ix v.dims → v.val m ix = some 0)
    (hv : ∀ ρ, InRange (s.map ρ) v.dims → v.val m' (s.map ρ) = some (0 + sumOver len f (onlyIn t s) ρ))
    (hfr : ∀ c, (∀ ρ, InRange (s.map ρ) v.dims → c ≠ v.cell (s.map ρ)) → m' c = m c) (W : List Nat → α) :
    ∃ F : List Nat → α, (∀ ix, InRange ix v.dims → v.val m' ix = some (F ix)) ∧
      inner v.dims W F = sumOver len (fun σ => W (s.map σ) * f σ) (letters s ++ onlyIn t s) (fun _ => 0) := by
  have hoff : ∀ ix, InRange ix v.dims → (∀ ρ, Fits len s ρ → ix ≠ s.map ρ) → v.val m' ix = some 0 := by
    intro ix hix hn
    rw [← hz ix hix]
    refine hfr _ fun ρ hρ e => ?_
    have e := hd _ _ hix hρ e
    have hρ : Fits len s ρ := by
      rw [hvd] at hρ
      unfold InRange at hρ
      rwa [List.forall₂_map_left_iff, List.forall₂_map_right_iff, List.forall₂_same] at hρ
    exact hn ρ hρ e
  have hin : ∀ ρ, Fits len s ρ → InRange (s.map ρ) v.dims := fun ρ h => by rw [hvd]; exact inRange_map h
  refine ⟨fun ix => (v.val m' ix).getD 0, ?_, ?_⟩
  · intro ix hix
    by_cases h : ∃ ρ, Fits len s ρ ∧ ix = s.map ρ
    · obtain ⟨ρ, hρ, rfl⟩ := h
      simp only [hv ρ (hin ρ hρ), Option.getD_some]
    · simp only [hoff ix hix fun ρ hρ e => h ⟨ρ, hρ, e⟩, Option.getD_some]
  · unfold inner
    rw [hvd, sum_diag len s (fun ix => W ix * (v.val m' ix).getD 0) (fun _ => 0), sumOver_append]
    · apply sumOver_congr
      intro σ h1 h2
      rw [hv σ (hin σ fun c hc => h1 c (mem_letters.2 hc)), Option.getD_some, zero_add]
      apply sumOver_mul_left len f (fun ρ => W (s.map ρ))
      intro τ hτ
      congr 1
      apply List.map_congr_left
      intro c hc
      exact hτ c fun h => (mem_onlyIn.1 h).2 hc
    · intro ix hix hn
      rw [hoff ix (by rw [hvd]; exact hix) hn, Option.getD_some, mul_zero]

/-- The two backward passes are the adjoints of the forward pass in each operand:
`⟨G, r(x,y)⟩ = ⟨x, back0(G,y)⟩ = ⟨y, back1(G,x)⟩`. -/
theorem C28_adjoint_partial [CommSemiring α] (xs ys rs : List Char) (hx : '_' ∉ xs) (hy : '_' ∉ ys) (hr : '_' ∉ rs)
    (hs : NoSpecial xs ys rs) (hc : convs xs ys rs = []) (hf : Few xs ys rs)
    (hr3 : (common rs (xs ++ ys)).length ≤ 3) (hx3 : (common xs (rs ++ ys)).length ≤ 3)
    (hy3 : (common ys (rs ++ xs)).length ≤ 3) (len : Char → Nat)
    (r x y : View) (hrd : r.dims = rs.map len) (hxd : x.dims = xs.map len) (hyd : y.dims = ys.map len)
    (hrw : r.WF) (hxw : x.WF) (hyw : y.WF) (hdr : r.Distinct) (hdx : x.Distinct) (hdy : y.Distinct)
    (hrx : r.Apart x) (hry : r.Apart y) (hxy : x.Apart y) (m m0 m1 : Buf α) (G X Y : List Nat → α)
    (hR : ∀ ix, InRange ix r.dims → r.val m ix = some 0) (hX : ∀ ix, InRange ix x.dims → x.val m ix = some (X ix))
    (hY : ∀ ix, InRange ix y.dims → y.val m ix = some (Y ix))
    (hR0 : ∀ ix, InRange ix r.dims → r.val m0 ix = some (G ix)) (hX0 : ∀ ix, InRange ix x.dims → x.val m0 ix = some 0)
    (hY0 : ∀ ix, InRange ix y.dims → y.val m0 ix = some (Y ix))
    (hR1 : ∀ ix, InRange ix r.dims → r.val m1 ix = some (G ix)) (hX1 : ∀ ix, InRange ix x.dims → x.val m1 ix = some (X ix))
    (hY1 : ∀ ix, InRange ix y.dims → y.val m1 ix = some 0) :
    ∃ m' m0' m1' F K L, addEinsum2 (form2 xs ys rs) r x y m = .ok m' ∧
      addEinsum2Back0 (form2 xs ys rs) x r y m0 = .ok m0' ∧ addEinsum2Back1 (form2 xs ys rs) y r x m1 = .ok m1' ∧
      (∀ ix, InRange ix r.dims → r.val m' ix = some (F ix)) ∧ (∀ ix, InRange ix x.dims → x.val m0' ix = some (K ix)) ∧
      (∀ ix, InRange ix y.dims → y.val m1' ix = some (L ix)) ∧
      inner r.dims G F = inner x.dims X K ∧ inner r.dims G F = inner y.dims Y L := by
  have flip : ∀ {a b : View}, a.Apart b → b.Apart a := fun h a b ha hb e => h b a hb ha e.symm
  have sub : ∀ {a b c : List Char}, (common b (a ++ c)).length ≤ 3 → (inFirst a b c).length ≤ 3 := by
    intro a b c h
    refine le_trans (List.Subperm.length_le ?_) h
    apply (inFirst_nodup a b c).subperm
    intro k hk
    rw [mem_inFirst] at hk
    exact mem_common.2 ⟨hk.2.1, List.mem_append_left _ hk.1⟩
  have hr3' : (common rs (ys ++ xs)).length ≤ 3 := by
    have : common rs (ys ++ xs) = common rs (xs ++ ys) := by
      simp only [common, List.mem_append, or_comm]
    rwa [this]
  obtain ⟨m', e, v, f⟩ := C27_add_einsum xs ys rs hx hy hr hs hc hf hr3 len r x y hrd hxd hyd hrw hxw hyw hdr hrx hry m
    (fun _ => 0) X Y hR hX hY
  obtain ⟨m0', e0, v0, f0⟩ := C28_back0_partial xs ys rs hx hy hr hs hc hf hx3 (sub hy3) len r x y hrd hxd hyd hrw hxw hyw hdx
    (flip hrx) hxy m0 G (fun _ => 0) Y hR0 hX0 hY0
  obtain ⟨m1', e1, v1, f1⟩ := C28_back1_partial xs ys rs hx hy hr hs hc hf hy3 (sub hx3) len r x y hrd hxd hyd hrw hxw hyw hdy
    (flip hry) (flip hxy) m1 G X (fun _ => 0) hR1 hX1 hY1
  obtain ⟨F, hF, iF⟩ := inner_pass rs _ len r hrd hdr m m' _ hR v f G
  obtain ⟨K, hK, iK⟩ := inner_pass xs _ len x hxd hdx m0 m0' _ hX0 v0 f0 X
  obtain ⟨L, hL, iL⟩ := inner_pass ys _ len y hyd hdy m1 m1' _ hY1 v1 f1 Y
  have nd : ∀ s t : List Char, (letters s ++ onlyIn t s).Nodup := fun s t =>
    nodup_app (letters_nodup _) (onlyIn_nodup _ _) (by
      intro a h h'
      exact (mem_onlyIn.1 h').2 (mem_letters.1 h))
  refine ⟨m', m0', m1', F, K, L, e, e0, e1, hF, hK, hL, ?_, ?_⟩
  · rw [iF, iK, sumOver_perm len _ (B := letters xs ++ onlyIn (rs ++ ys) xs) _ (nd _ _)]
    · apply sumOver_congr
      intro σ _ _
      rw [mul_left_comm]
    · rw [List.perm_ext_iff_of_nodup (nd _ _) (nd _ _)]
      intro c
      simp only [List.mem_append, mem_letters, mem_onlyIn]
      tauto
  · rw [iF, iL, sumOver_perm len _ (B := letters ys ++ onlyIn (rs ++ xs) ys) _ (nd _ _)]
    · apply sumOver_congr
      intro σ _ _
      rw [← mul_assoc, mul_comm (G _ * _)]
    · rw [List.perm_ext_iff_of_nodup (nd _ _) (nd _ _)]
      intro c
      simp only [List.mem_append, mem_letters, mem_onlyIn]
      tauto

/-- "ikb,kja->ijc" again: all three bounds hold. -/
example : NoSpecial "ikb".toList "kja".toList "ijc".toList ∧ convs "ikb".toList "kja".toList "ijc".toList = [] ∧
    Few "ikb".toList "kja".toList "ijc".toList ∧ (common "ijc".toList ("ikb".toList ++ "kja".toList)).length ≤ 3 ∧
    (common "ikb".toList ("ijc".toList ++ "kja".toList)).length ≤ 3 ∧
    (common "kja".toList ("ijc".toList ++ "ikb".toList)).length ≤ 3 ∧
    (⟨8, [2, 2, 2], [1, 2, 4]⟩ : View).Distinct ∧ (⟨16, [2, 2, 2], [4, 2, 1]⟩ : View).Distinct ∧
    (⟨8, [2, 2, 2], [1, 2, 4]⟩ : View).Apart ⟨16, [2, 2, 2], [4, 2, 1]⟩ :=
  ⟨⟨by decide, by decide⟩, by decide, ⟨by decide, by decide, by decide, by decide, by decide⟩, by decide, by decide,
    by decide, by decide, by decide, by decide⟩

/-- "ijklm,m->ijkl" passes every assertion (four letters shared by x and r, one by x and y) but the backward pass into
x has five transfer letters and writes past the end of its parameter array. -/
theorem C28_back0_overflow_fails :
    ∃ (r x y : View) (m : Buf Int), r.dims = [1, 1, 1, 1] ∧ x.dims = [1, 1, 1, 1, 1] ∧ y.dims = [1] ∧ r.WF ∧ x.WF ∧ y.WF ∧
      x.Distinct ∧ x.Apart r ∧ x.Apart y ∧ (∀ c < 3, (m c).isSome) ∧
      Few "ijklm".toList "m".toList "ijkl".toList ∧
      addEinsum2Back0 (form2 "ijklm".toList "m".toList "ijkl".toList) x r y m = .ub :=
  ⟨⟨0, [1, 1, 1, 1], [1, 1, 1, 1]⟩, ⟨1, [1, 1, 1, 1, 1], [1, 1, 1, 1, 1]⟩, ⟨2, [1], [1]⟩, Buf.ofList [1, 2, 3], rfl, rfl,
    rfl, by decide, by decide, by decide, by decide, by decide, by decide, by decide,
    ⟨by decide, by decide, by decide, by decide, by decide⟩, rfl⟩

/-- "i,jklm->jklm" passes every assertion too; the backward pass into x has to contract four letters and has three
loops, so `x` gains 1·3 instead of 1·3 + 2·4. -/
theorem C28_back0_four_contractions_fails :
    ∃ (r x y : View) (m m' : Buf Int), r.dims = [1, 1, 1, 2] ∧ x.dims = [1] ∧ y.dims = [1, 1, 1, 2] ∧ r.WF ∧ x.WF ∧ y.WF ∧
      x.Distinct ∧ x.Apart r ∧ x.Apart y ∧ Few "i".toList "jklm".toList "jklm".toList ∧
      r.val m [0, 0, 0, 0] = some 1 ∧ r.val m [0, 0, 0, 1] = some 2 ∧ y.val m [0, 0, 0, 0] = some 3 ∧
      y.val m [0, 0, 0, 1] = some 4 ∧ x.val m [0] = some 0 ∧
      addEinsum2Back0 (form2 "i".toList "jklm".toList "jklm".toList) x r y m = .ok m' ∧ x.val m' [0] = some 3 :=
  ⟨⟨1, [1, 1, 1, 2], [2, 2, 2, 1]⟩, ⟨0, [1], [1]⟩, ⟨3, [1, 1, 1, 2], [2, 2, 2, 1]⟩, Buf.ofList [0, 1, 2, 3, 4], _, rfl, rfl,
    rfl, by decide, by decide, by decide, by decide, by decide, by decide,
    ⟨by decide, by decide, by decide, by decide, by decide⟩, by decide, by decide, by decide, by decide, by decide, rfl,
    by decide⟩

/-- The same into y: "jklm,i->jklm". -/
theorem C28_back1_four_contractions_fails :
    ∃ (r x y : View) (m m' : Buf Int), r.dims = [1, 1, 1, 2] ∧ x.dims = [1, 1, 1, 2] ∧ y.dims = [1] ∧ r.WF ∧ x.WF ∧ y.WF ∧
      y.Distinct ∧ y.Apart r ∧ y.Apart x ∧ Few "jklm".toList "i".toList "jklm".toList ∧
      r.val m [0, 0, 0, 0] = some 1 ∧ r.val m [0, 0, 0, 1] = some 2 ∧ x.val m [0, 0, 0, 0] = some 3 ∧
      x.val m [0, 0, 0, 1] = some 4 ∧ y.val m [0] = some 0 ∧
      addEinsum2Back1 (form2 "jklm".toList "i".toList "jklm".toList) y r x m = .ok m' ∧ y.val m' [0] = some 3 :=
  ⟨⟨1, [1, 1, 1, 2], [2, 2, 2, 1]⟩, ⟨3, [1, 1, 1, 2], [2, 2, 2, 1]⟩, ⟨0, [1], [1]⟩, Buf.ofList [0, 1, 2, 3, 4], _, rfl, rfl,
    rfl, by decide, by decide, by decide, by decide, by decide, by decide,
    ⟨by decide, by decide, by decide, by decide, by decide⟩, by decide, by decide, by decide, by decide, by decide, rfl,
    by decide⟩

end Einsum
end Cnine
