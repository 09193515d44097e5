import Verif.Lemmas.EinsumFnForm
import Verif.Lemmas.Einsum1

/-! # The loops of the einsum functors -/

namespace Cnine
namespace EinsumFn

open Einsum (letters positions comb Fits asg sumOver upd common onlyIn mem_common mem_onlyIn cell_split asg_fits inRange_append
  inRange_map bcast_core forM_sum sumOver_eq dimAt_eq)

variable {α : Type}

theorem nest_eq {σ : Type} (D : List Nat) (s : σ) (f : List Nat → σ → Res σ) :
    nest D s f = Res.forM (allIndices D) s fun s ix => f ix s := by
  induction D generalizing s f with
  | nil =>
    unfold nest
    simp only [allIndices, Res.forM_cons, Res.forM_nil]
    cases f [] s <;> rfl
  | cons n D ih =>
    unfold nest loop
    simp only [allIndices, forM_flatMap, forM_map]
    apply forM_congr
    intro i _ s
    rw [ih]

theorem lin_eq (S ix : List Nat) : lin S ix = dot S ix := by
  unfold lin dot
  induction S generalizing ix with
  | nil => simp
  | cons a S ih =>
    cases ix with
    | nil => simp
    | cons i ix => simp only [List.zip_cons_cons, List.map_cons, List.sum_cons, ih, Nat.mul_comm]

theorem combine_eq (c : Char) (s : List Char) (st : List Nat) (h : s.length = st.length) :
    combine st (positions c s) = .ok (comb c s st) := by
  rw [← Einsum.combine_eq c s st h]
  unfold combine Einsum.combine
  apply forM_congr
  intro p hp t
  have : p < st.length := h ▸ (List.getElem?_eq_some_iff.1 (Einsum.mem_positions.1 hp)).1
  rw [decide_eq_true this, Res.assrt_true, Res.ok_bind]

theorem dirAxes_eq (T rs xs ys : List Char) (len : Char → Nat) (r x y : View) (hd : r.dims = rs.map len)
    (hlr : rs.length = r.strides.length) (hlx : xs.length = x.strides.length) (hly : ys.length = y.strides.length)
    (hT : ∀ c ∈ T, c ∈ rs) :
    dirAxes r x y (T.map fun c => (positions c rs, positions c xs, positions c ys)) =
      .ok (T.map fun c => (len c, comb c rs r.strides, comb c xs x.strides, comb c ys y.strides)) := by
  induction T with
  | nil => rfl
  | cons c T ih =>
    simp only [List.map_cons, dirAxes, hd, dimAt_eq c rs len (hT c (by simp)), Res.ok_bind, combine_eq c _ _ hlr, combine_eq c _ _ hlx,
      combine_eq c _ _ hly, ih fun c hc => hT c (by simp [hc])]

theorem bcastAxes_eq (B rs : List Char) (len : Char → Nat) (r : View) (hd : r.dims = rs.map len)
    (hlr : rs.length = r.strides.length) (hB : ∀ c ∈ B, c ∈ rs) :
    bcastAxes r (B.map (positions · rs)) = .ok (B.map fun c => (len c, comb c rs r.strides)) := by
  induction B with
  | nil => rfl
  | cons c B ih =>
    simp only [List.map_cons, bcastAxes, hd, dimAt_eq c rs len (hB c (by simp)), Res.ok_bind, combine_eq c _ _ hlr,
      ih fun c hc => hB c (by simp [hc])]

/-- The numbers read for the summed letters `S` from the views `d`, `a`, `b` are those that belong to `x` and `y`. -/
def Right (S xs ys : List Char) (len : Char → Nat) (d a b x y : View) : Prop :=
  ∀ c ∈ S, Einsum.dimAt d.dims (positions c xs) = .ok (len c) ∧ combine a.strides (positions c xs) = .ok (comb c xs x.strides) ∧
    combine b.strides (positions c ys) = .ok (comb c ys y.strides)

theorem sumAxes_eq (S xs ys : List Char) (len : Char → Nat) (d a b x y : View) (h : Right S xs ys len d a b x y) :
    sumAxes d a b (S.map fun c => (positions c xs, positions c ys)) =
      .ok (S.map fun c => (len c, comb c xs x.strides, comb c ys y.strides)) := by
  induction S with
  | nil => rfl
  | cons c S ih =>
    obtain ⟨h1, h2, h3⟩ := h c (by simp)
    simp only [List.map_cons, sumAxes, h1, h2, h3, Res.ok_bind, ih fun c hc => h c (by simp [hc])]

theorem right_own (S xs ys : List Char) (len : Char → Nat) (x y : View) (hd : x.dims = xs.map len)
    (hlx : xs.length = x.strides.length) (hly : ys.length = y.strides.length) (hS : ∀ c ∈ S, c ∈ xs) :
    Right S xs ys len x x y x y := fun c hc =>
  ⟨by rw [hd]; exact dimAt_eq c xs len (hS c hc), combine_eq c _ _ hlx, combine_eq c _ _ hly⟩

theorem addProds_eq [AddCommMonoid α] (prod : α → α → α) (S xs ys : List Char) (len : Char → Nat) (x y : View) (xo yo : Nat) (m : Buf α) :
    addProds prod (S.map fun c => (len c, comb c xs x.strides, comb c ys y.strides)) x y xo yo m =
      Res.forM (allIndices (S.map len)) 0 fun t u => (do
        let a ← m.read (x.off + xo + dot (S.map (comb · xs x.strides)) u)
        let b ← m.read (y.off + yo + dot (S.map (comb · ys y.strides)) u)
        .ok (t + prod a b)) := by
  unfold addProds
  rw [nest_eq]
  simp only [List.map_map, Function.comp_def, lin_eq, Nat.add_assoc]

theorem bloops_eq [Add α] (B rs : List Char) (len : Char → Nat) (r : View) (hd : r.dims = rs.map len)
    (hlr : rs.length = r.strides.length) (hB : ∀ c ∈ B, c ∈ rs) (h3 : B.length ≤ 3) (f : Form) (hf : f.bcasts = B.map (positions · rs))
    (ro : Nat) (t : α) (m : Buf α) :
    bloops f r ro t m = Res.forM (allIndices (B.map len)) m fun m b => (do
      let c := r.off + ro + dot (B.map (comb · rs r.strides)) b
      let a ← m.read c
      m.write c (a + t)) := by
  unfold bloops
  rw [hf, if_pos (by simpa using h3), bcastAxes_eq B rs len r hd hlr hB, Res.ok_bind, nest_eq]
  simp only [List.map_map, Function.comp_def, lin_eq]

/-- The cell of a view when the letters outside the two groups are given the value zero. -/
theorem cell_split0 (v : View) (s T S : List Char) (hl : s.length = v.strides.length) (hnd : (T ++ S).Nodup)
    (t u : List Nat) (ht : t.length = T.length) (hu : u.length = S.length) :
    v.cell (s.map (asg (T ++ S) (t ++ u))) =
      v.off + dot (T.map (comb · s v.strides)) t + dot (S.map (comb · s v.strides)) u := by
  have h0 : ∀ (st : List Nat) (s : List Char) (ρ : Char → Nat), s.length = st.length → (∀ c, c ∉ T ++ S → ρ c = 0) →
      dot st (s.map ρ) = dot ((T ++ S).map (comb · s st)) ((T ++ S).map ρ) := by
    intro st s ρ hl h0
    rw [Einsum.dot_eq_sum _ _ (T ++ S) _ _ rfl rfl]
    induction s generalizing st with
    | nil => simp [comb]
    | cons d s ih =>
      cases st with
      | nil => simp at hl
      | cons a st =>
        rw [List.map_cons, dot_cons, ih st (by simpa using hl)]
        have : ((T ++ S).map fun c => comb c (d :: s) (a :: st) * ρ c) =
            (T ++ S).map fun c => (if d = c then a * ρ c else 0) + comb c s st * ρ c := by
          apply List.map_congr_left
          intro c _
          rw [Einsum.comb_cons, Nat.add_mul]
          split <;> simp
        rw [this, List.sum_map_add]
        by_cases hd : d ∈ T ++ S
        · rw [Einsum.sum_indicator (T ++ S) hnd (fun c => a * ρ c) d hd]
        · rw [h0 d hd]
          have : ((T ++ S).map fun c => if d = c then a * ρ c else 0).sum = 0 := by
            apply List.sum_eq_zero
            intro q hq
            obtain ⟨c, hc, rfl⟩ := List.mem_map.1 hq
            rw [if_neg (fun e : d = c => hd (e ▸ hc))]
          rw [this]
          simp
  rw [View.cell, h0 v.strides s _ hl, Einsum.map_asg _ _ hnd (by simp [ht, hu]), List.map_append,
    dot_append _ _ _ _ (by simp [ht]), Nat.add_assoc]
  intro c hc
  rw [asg, List.idxOf_eq_length_iff.2 hc, List.getD_eq_getElem?_getD, List.getElem?_eq_none (by simp [ht, hu])]
  rfl

/-- The products added up for the letters `S`. -/
def total [Zero α] [Add α] (prod : α → α → α) (S xs ys T : List Char) (len : Char → Nat) (x y : View) (t : List Nat) (m : Buf α) : Res α :=
  Res.forM (allIndices (S.map len)) 0 fun v u => do
    let a ← m.read (x.off + dot (T.map (comb · xs x.strides)) t + dot (S.map (comb · xs x.strides)) u)
    let b ← m.read (y.off + dot (T.map (comb · ys y.strides)) t + dot (S.map (comb · ys y.strides)) u)
    .ok (v + prod a b)

/-- The loops around any `sloops` that adds up the products and hands the total to `bloops`. -/
theorem runFn_spec [AddCommMonoid α] (prod : α → α → α) (k : Nat) (f : Form) (r x y : View) (rs xs ys T S B : List Char)
    (len : Char → Nat) (hrd : r.dims = rs.map len) (hxd : x.dims = xs.map len) (hyd : y.dims = ys.map len)
    (hrl : rs.length = r.strides.length) (hxl : xs.length = x.strides.length) (hyl : ys.length = y.strides.length)
    (hdist : r.Distinct) (hax : r.Apart x) (hay : r.Apart y)
    (hB : (T ++ B).Nodup) (hS : (T ++ S).Nodup) (hcr : ∀ c, c ∈ T ++ B ↔ c ∈ rs) (hcx : ∀ c ∈ xs, c ∈ T ++ S)
    (hcy : ∀ c ∈ ys, c ∉ T ++ S → 0 < len c)
    (hT : T.length ≤ k) (hB3 : B.length ≤ 3)
    (hfd : f.direct = T.map fun c => (positions c rs, positions c xs, positions c ys)) (hfb : f.bcasts = B.map (positions · rs))
    (sl : Nat → Nat → Nat → Buf α → Res (Buf α))
    (hsl : ∀ (t : List Nat) (m : Buf α), sl (dot (T.map (comb · rs r.strides)) t) (dot (T.map (comb · xs x.strides)) t)
      (dot (T.map (comb · ys y.strides)) t) m = do
        let v ← total prod S xs ys T len x y t m
        bloops f r (dot (T.map (comb · rs r.strides)) t) v m)
    (m : Buf α) (R X Y : List Nat → α) (hR : ∀ ix, InRange ix r.dims → r.val m ix = some (R ix))
    (hX : ∀ ix, InRange ix x.dims → x.val m ix = some (X ix)) (hY : ∀ ix, InRange ix y.dims → y.val m ix = some (Y ix)) :
    ∃ m', runFn k f r x y sl m = .ok m' ∧
      (∀ ρ, InRange (rs.map ρ) r.dims → r.val m' (rs.map ρ) = some (R (rs.map ρ) +
        sumOver len (fun σ => prod (X (xs.map σ)) (Y (ys.map fun c => if c ∈ T ++ S then σ c else 0))) S ρ)) ∧
      ∀ c, (∀ ρ, InRange (rs.map ρ) r.dims → c ≠ r.cell (rs.map ρ)) → m' c = m c := by
  have hlen : ∀ {L : List Char} {t : List Nat}, InRange t (L.map len) → t.length = L.length := fun h => by
    simpa using h.length
  have hfit : ∀ {L : List Char} {ρ : Char → Nat}, Fits len L ρ ↔ InRange (L.map ρ) (L.map len) := by
    intro L ρ
    refine ⟨inRange_map, fun h c hc => ?_⟩
    unfold InRange at h
    rw [List.forall₂_map_left_iff, List.forall₂_map_right_iff, List.forall₂_same] at h
    exact h c hc
  obtain ⟨m', h1, h2, h3⟩ := bcast_core r rs T B len hrl (Einsum.distinct_letters hrd hdist) hB hcr m R
    (fun ρ hρ => hR _ (by rw [hrd]; exact hfit.1 hρ)) (total prod S xs ys T len x y)
    (fun t => ((allIndices (S.map len)).map fun u =>
      prod (X (xs.map (asg (T ++ S) (t ++ u)))) (Y (ys.map (asg (T ++ S) (t ++ u))))).sum)
    (by
      intro t ht m1 hm1
      unfold total
      rw [forM_sum _ _ _ (fun u => prod (X (xs.map (asg (T ++ S) (t ++ u)))) (Y (ys.map (asg (T ++ S) (t ++ u))))), zero_add]
      intro u hu v
      have hu := mem_allIndices.1 hu
      have ha := asg_fits (by rw [List.map_append]; exact Einsum.inRange_append ht hu : InRange (t ++ u) ((T ++ S).map len))
      have fx : Fits len xs (asg (T ++ S) (t ++ u)) := fun c hc => ha c (hcx c hc)
      have fy : Fits len ys (asg (T ++ S) (t ++ u)) := fun c hc => by
        by_cases h : c ∈ T ++ S
        · exact ha c h
        · rw [asg, List.idxOf_eq_length_iff.2 h, List.getD_eq_getElem?_getD,
            List.getElem?_eq_none (by rw [List.length_append, List.length_append, hlen ht, hlen hu])]
          exact hcy c hc h
      rw [← cell_split x xs T S hxl hS hcx t u (hlen ht) (hlen hu), ← cell_split0 y ys T S hyl hS t u (hlen ht) (hlen hu)]
      have ex := hX _ (by rw [hxd]; exact hfit.1 fx)
      have ey := hY _ (by rw [hyd]; exact hfit.1 fy)
      rw [View.val, ← hm1 _ fun ρ hρ => (Einsum.apart_letters hrd hxd hax ρ _ hρ fx).symm] at ex
      rw [View.val, ← hm1 _ fun ρ hρ => (Einsum.apart_letters hrd hyd hay ρ _ hρ fy).symm] at ey
      simp [Buf.read, ex, ey])
  refine ⟨m', ?_, ?_, ?_⟩
  · rw [← h1]
    unfold runFn
    rw [hfd, if_pos (by simpa using hT), dirAxes_eq T rs xs ys len r x y hrd hrl hxl hyl
      fun c hc => (hcr c).1 (List.mem_append_left _ hc), Res.ok_bind, nest_eq]
    simp only [List.map_map, Function.comp_def, lin_eq]
    apply forM_congr
    intro t _ m1
    rw [hsl t m1]
    congr 1
    funext v
    exact bloops_eq B rs len r hrd hrl (fun c hc => (hcr c).1 (List.mem_append_right _ hc)) hB3 f hfb _ v m1
  · intro ρ hρ
    rw [hrd] at hρ
    rw [View.val, h2 ρ (hfit.2 hρ), sumOver_eq len _ S (List.nodup_append.1 hS).2.1 ρ]
    congr 3
    apply List.map_congr_left
    intro u hu
    have hu := mem_allIndices.1 hu
    have key : ∀ c, asg (T ++ S) (T.map ρ ++ u) c = if c ∈ T ++ S then (if c ∈ S then asg S u c else ρ c) else 0 := by
      intro c
      by_cases hc' : c ∈ T ++ S
      · rw [if_pos hc']
        by_cases h : c ∈ S
        · have hT : c ∉ T := fun h' => (List.nodup_append.1 hS).2.2 c h' c h rfl
          simp [h, asg, List.idxOf_append, hT, List.getD_eq_getElem?_getD]
          rw [List.getElem?_append_right (by simp)]
          simp
        · have hT : c ∈ T := by simpa [h] using hc'
          have hi := List.idxOf_lt_length_of_mem hT
          simp [h, asg, List.idxOf_append, hT, List.getD_eq_getElem?_getD]
          rw [List.getElem?_append_left (by simpa using hi), List.getElem?_map, List.getElem?_eq_getElem hi]
          simp
      · rw [if_neg hc', asg, List.idxOf_eq_length_iff.2 hc', List.getD_eq_getElem?_getD,
          List.getElem?_eq_none (by rw [List.length_append, List.length_append, List.length_map, hlen hu])]
        rfl
    rw [List.map_congr_left (l := xs) fun c hc => (key c).trans (if_pos (hcx c hc)), List.map_congr_left (l := ys) fun c _ => key c]
  · intro c hc
    exact h3 c fun ρ hρ => hc ρ (by rw [hrd]; exact hfit.1 hρ)

/-! ### the two versions of `sloops` -/

theorem total_nil [AddCommMonoid α] (prod : α → α → α) (xs ys T : List Char) (len : Char → Nat) (x y : View) (t : List Nat) (m : Buf α) :
    total prod [] xs ys T len x y t m = (do
      let a ← m.read (x.off + dot (T.map (comb · xs x.strides)) t)
      let b ← m.read (y.off + dot (T.map (comb · ys y.strides)) t)
      .ok (prod a b)) := by
  unfold total
  simp only [List.map_nil, allIndices, Res.forM_cons, Res.forM_nil, dot, List.zip_nil_left, List.sum_nil, Nat.add_zero, zero_add]
  cases m.read (x.off + (List.map (fun p => p.1 * p.2) ((T.map (comb · xs x.strides)).zip t)).sum) with
  | ok a =>
    cases m.read (y.off + (List.map (fun p => p.1 * p.2) ((T.map (comb · ys y.strides)).zip t)).sum) <;> rfl
  | throw => rfl
  | ub => rfl

theorem realSloops_eq [AddCommMonoid α] [Mul α] (f : Form) (r x y : View) (S xs ys T : List Char) (len : Char → Nat)
    (hf : f.sums = S.map fun c => (positions c xs, positions c ys)) (h3 : S.length ≤ 3) (hr : Right S xs ys len r r r x y)
    (ro : Nat) (t : List Nat) (m : Buf α) :
    realSloops f r x y ro (dot (T.map (comb · xs x.strides)) t) (dot (T.map (comb · ys y.strides)) t) m = (do
      let v ← total (· * ·) S xs ys T len x y t m
      bloops f r ro v m) := by
  unfold realSloops
  rw [hf, List.length_map]
  by_cases h : S.length = 0
  · rw [if_pos h]
    obtain rfl := List.length_eq_zero_iff.1 h
    rw [total_nil]
    cases m.read (x.off + dot (T.map (comb · xs x.strides)) t) with
    | ok a => cases m.read (y.off + dot (T.map (comb · ys y.strides)) t) <;> rfl
    | throw => rfl
    | ub => rfl
  · rw [if_neg h, if_pos h3, sumAxes_eq S xs ys len r r r x y hr, Res.ok_bind, addProds_eq]
    rfl

theorem complexSloops_eq [AddCommMonoid α] [Mul α] (cj : α → α) (f : Form) (r x y : View) (S xs ys T : List Char) (len : Char → Nat)
    (hf : f.sums = S.map fun c => (positions c xs, positions c ys)) (h3 : S.length ≤ 3) (hr : Right S xs ys len x x y x y)
    (ro : Nat) (t : List Nat) (m : Buf α) :
    complexSloops cj f r x y ro (dot (T.map (comb · xs x.strides)) t) (dot (T.map (comb · ys y.strides)) t) m = (do
      let v ← total (fun a b => flip cj f.xconj a * flip cj (if S.length = 3 && f.xconj then ! f.yconj else f.yconj) b)
        S xs ys T len x y t m
      bloops f r ro v m) := by
  unfold complexSloops
  rw [hf, List.length_map]
  by_cases h : S.length = 0
  · rw [if_pos h]
    obtain rfl := List.length_eq_zero_iff.1 h
    rw [total_nil]
    cases m.read (x.off + dot (T.map (comb · xs x.strides)) t) with
    | ok a => cases m.read (y.off + dot (T.map (comb · ys y.strides)) t) <;> rfl
    | throw => rfl
    | ub => rfl
  · rw [if_neg h, if_pos h3, sumAxes_eq S xs ys len x x y x y hr, Res.ok_bind]
    dsimp only
    rw [addProds_eq]
    rfl

/-! ### the groups of letters -/

theorem groups_result {xs ys rs : List Char} : (common rs (xs ++ ys) ++ onlyIn rs (xs ++ ys)).Nodup ∧
    ∀ c, c ∈ common rs (xs ++ ys) ++ onlyIn rs (xs ++ ys) ↔ c ∈ rs := by
  refine ⟨?_, fun c => ?_⟩
  · refine List.nodup_append.2 ⟨(Einsum.letters_nodup rs).filter _, Einsum.onlyIn_nodup _ _, ?_⟩
    rintro a ha b hb rfl
    exact (mem_onlyIn.1 hb).2 (mem_common.1 ha).2
  · rw [List.mem_append, mem_common, mem_onlyIn]
    tauto

theorem groups_operand {xs ys rs : List Char} : (common rs (xs ++ ys) ++ onlyIn xs rs).Nodup ∧
    ∀ c ∈ xs, c ∈ common rs (xs ++ ys) ++ onlyIn xs rs := by
  refine ⟨?_, fun c hc => ?_⟩
  · refine List.nodup_append.2 ⟨(Einsum.letters_nodup rs).filter _, Einsum.onlyIn_nodup _ _, ?_⟩
    rintro a ha b hb rfl
    exact (mem_onlyIn.1 hb).2 (mem_common.1 ha).1
  · rw [List.mem_append, mem_common, mem_onlyIn, List.mem_append]
    tauto

theorem known_second {xs ys rs : List Char} {c : Char} (hc : c ∈ ys) :
    c ∈ common rs (xs ++ ys) ++ onlyIn xs rs ↔ c ∈ xs ++ rs := by
  rw [List.mem_append, mem_common, mem_onlyIn, List.mem_append, List.mem_append]
  tauto

end EinsumFn
end Cnine
