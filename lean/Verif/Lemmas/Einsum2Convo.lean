import Verif.Lemmas.Einsum2Pass

/-! The limited backward loops of convolution letters. -/

namespace Cnine
namespace Einsum

variable {α : Type} {κ : Type} [DecidableEq κ]

theorem forM_noop {σ ι : Type _} (l : List ι) (s : σ) : Res.forM l s (fun s _ => .ok s) = .ok s := by
  induction l with
  | nil => rfl
  | cons a l ih => rw [Res.forM_cons, Res.ok_bind, ih]

theorem loop_noop {σ : Type _} (n : Nat) (s : σ) : loop n s (fun _ s => .ok s) = .ok s := forM_noop _ s

theorem loop_if {σ : Type _} (n : Nat) (s : σ) (p : Prop) [Decidable p] (f : Nat → σ → Res σ) :
    (if p then loop n s f else .ok s) = loop n s fun i s => if p then f i s else .ok s := by
  by_cases h : p
  · simp [h]
  · simp [h, loop_noop]

theorem forM_filter {σ ι : Type _} (l : List ι) (q : ι → Bool) (s : σ) (f : σ → ι → Res σ) :
    Res.forM (l.filter q) s f = Res.forM l s fun s i => if q i then f s i else .ok s := by
  induction l generalizing s with
  | nil => rfl
  | cons a l ih =>
    by_cases h : q a
    · rw [List.filter_cons_of_pos h, Res.forM_cons, Res.forM_cons, if_pos h]
      congr 1
      funext s
      exact ih s
    · rw [List.filter_cons_of_neg h, Res.forM_cons, if_neg h, Res.ok_bind, ih]

theorem range_filter (lo hi n : Nat) (h : hi ≤ n) :
    (List.range n).filter (fun i => decide (lo ≤ i ∧ i < hi)) = (List.range (hi - lo)).map (lo + ·) := by
  apply List.Perm.eq_of_pairwise (le := (· < ·))
  · intro a b _ _ h1 h2; omega
  · exact List.pairwise_lt_range.filter _
  · rw [List.pairwise_map]
    exact List.pairwise_lt_range.imp fun h => by omega
  · rw [List.perm_ext_iff_of_nodup (List.nodup_range.filter _)
      (List.Nodup.map (fun a b h => by omega) List.nodup_range)]
    intro a
    simp only [List.mem_filter, List.mem_range, decide_eq_true_eq, List.mem_map]
    constructor
    · rintro ⟨_, h1, h2⟩
      exact ⟨a - lo, by omega, by omega⟩
    · rintro ⟨b, h1, rfl⟩
      omega

theorem loopFrom_eq {σ : Type _} (lo hi n : Nat) (h : hi ≤ n) (s : σ) (f : Nat → σ → Res σ) :
    loopFrom lo hi s f = loop n s fun i s => if lo ≤ i ∧ i < hi then f i s else .ok s := by
  have e := forM_filter (List.range n) (fun i => decide (lo ≤ i ∧ i < hi)) s (fun s i => f i s)
  rw [range_filter lo hi n h, forM_map] at e
  simp only [decide_eq_true_eq] at e
  exact e

/-- The contraction index is within the limits of the three loops. -/
def P2.within (p : P2) (t c : List Nat) : Prop :=
  (p.cmin 0 (t.getD 0 0) ≤ c.getD 0 0 ∧ c.getD 0 0 < p.cmax 0 (t.getD 0 0)) ∧
  (p.cmin 1 (t.getD 1 0) ≤ c.getD 1 0 ∧ c.getD 1 0 < p.cmax 1 (t.getD 1 0)) ∧
  (p.cmin 2 (t.getD 2 0) ≤ c.getD 2 0 ∧ c.getD 2 0 < p.cmax 2 (t.getD 2 0))

instance (p : P2) (t c : List Nat) : Decidable (p.within t c) := by unfold P2.within; infer_instance

theorem P2.cmax_le (p : P2) (i t : Nat) : p.cmax i t ≤ p.cd i := by
  unfold P2.cmax
  split <;> omega

theorem limited3 {σ : Type _} (p : P2) (t : List Nat) (s : σ) (f : Nat → Nat → Nat → σ → Res σ) :
    (loopFrom (p.cmin 0 (t.getD 0 0)) (p.cmax 0 (t.getD 0 0)) s fun c0 s =>
      loopFrom (p.cmin 1 (t.getD 1 0)) (p.cmax 1 (t.getD 1 0)) s fun c1 s =>
      loopFrom (p.cmin 2 (t.getD 2 0)) (p.cmax 2 (t.getD 2 0)) s fun c2 s => f c0 c1 c2 s) =
    loop (p.cd 0) s fun c0 s => loop (p.cd 1) s fun c1 s => loop (p.cd 2) s fun c2 s =>
      if p.within t [c0, c1, c2] then f c0 c1 c2 s else .ok s := by
  rw [loopFrom_eq _ _ _ (p.cmax_le 0 _)]
  congr 1; funext c0 s
  rw [loopFrom_eq _ _ _ (p.cmax_le 1 _), loop_if]
  congr 1; funext c1 s
  rw [loopFrom_eq _ _ _ (p.cmax_le 2 _), loop_if, loop_if]
  congr 1; funext c2 s
  unfold P2.within
  simp only [List.getD_cons_zero, List.getD_cons_succ]
  by_cases h0 : p.cmin 0 (t.getD 0 0) ≤ c0 ∧ c0 < p.cmax 0 (t.getD 0 0)
  · by_cases h1 : p.cmin 1 (t.getD 1 0) ≤ c1 ∧ c1 < p.cmax 1 (t.getD 1 0)
    · by_cases h2 : p.cmin 2 (t.getD 2 0) ≤ c2 ∧ c2 < p.cmax 2 (t.getD 2 0) <;> simp only [h0, h1, h2, and_self, if_true, and_false, if_false]
    · simp only [h0, h1, if_true, if_false, and_false, false_and, and_self, ite_self]
  · simp only [h0, if_false, false_and]

/-- Padding does not change the limits test. -/
theorem getD_pad (t : List Nat) (k i : Nat) : (t ++ List.replicate k 0).getD i 0 = t.getD i 0 := by
  simp only [List.getD_eq_getElem?_getD]
  by_cases h : i < t.length
  · rw [List.getElem?_append_left h]
  · rw [List.getElem?_append_right (by omega), List.getElem?_eq_none (l := t) (by omega), List.getElem?_replicate]
    split <;> rfl

theorem within_pad (p : P2) (t c : List Nat) (j k : Nat) :
    p.within (t ++ List.replicate j 0) (c ++ List.replicate k 0) = p.within t c := by
  unfold P2.within
  simp only [getD_pad]

/-- The limited loops for given extents and strides of the operands. -/
theorem convo_core [NonUnitalNonAssocSemiring α] (r x y : View) (rs T B : List κ) (len : κ → Nat) (lim : Nat → Bool)
    (TX TY CD CX GS VS CY XD XS YD YS : List Nat)
    (hrl : rs.length = r.strides.length)
    (hdist : ∀ ρ ρ', Fits len rs ρ → Fits len rs ρ' → r.cell (rs.map ρ) = r.cell (rs.map ρ') → rs.map ρ = rs.map ρ')
    (hB : (T ++ B).Nodup) (hcr : ∀ c, c ∈ T ++ B ↔ c ∈ rs)
    (lTX : TX.length = T.length) (lTY : TY.length = T.length) (lGS : GS.length = CD.length) (lVS : VS.length = CD.length)
    (lCY : CY.length = CD.length)
    (lXS : XS.length = XD.length) (lYS : YS.length = YD.length)
    (hT4 : T.length ≤ 4) (hC3 : CD.length ≤ 3) (hX3 : XD.length ≤ 3) (hY3 : YD.length ≤ 3) (hB3 : B.length ≤ 3)
    (hty : str TX 3 = str TY 3) (htr : str TX 3 = str (T.map (comb · rs r.strides)) 3)
    (p : P2) (hp : p = { td := ext (T.map len), tsx := str TX, tsy := str TY, tsr := str (T.map (comb · rs r.strides)), xsd := ext XD, xss := str XS, ysd := ext YD, yss := str YS, cd := ext CD, csx := str CX, csy := str CY, bd := ext (B.map len), bs := str (B.map (comb · rs r.strides)), lim := lim })
    (hdisp : ∀ i c, i < 3 → p.disp i c = ((c * str GS i : Nat) : Int) - ((c * str VS i : Nat) : Int))
    (m : Buf α) (R : List Nat → α) (base : List Nat → List Nat → Nat) (XV YV : List Nat → List Nat → List Nat → α)
    (hR : ∀ ρ, Fits len rs ρ → r.val m (rs.map ρ) = some (R (rs.map ρ)))
    (hbase : ∀ t c, InRange t (T.map len) → InRange c CD → p.within t c →
      base t c + dot VS c = x.off + dot TX t + dot GS c)
    (hX : ∀ t c u, InRange t (T.map len) → InRange c CD → p.within t c → InRange u XD →
      m (base t c + dot XS u) = some (XV t c u) ∧ ∀ ρ, Fits len rs ρ → base t c + dot XS u ≠ r.cell (rs.map ρ))
    (hY : ∀ t c u, InRange t (T.map len) → InRange c CD → InRange u YD →
      m (y.off + dot TY t + dot CY c + dot YS u) = some (YV t c u) ∧
      ∀ ρ, Fits len rs ρ → y.off + dot TY t + dot CY c + dot YS u ≠ r.cell (rs.map ρ)) :
    ∃ m', runConvoBack p r x y m = .ok m' ∧
      (∀ ρ, Fits len rs ρ → r.val m' (rs.map ρ) = some (R (rs.map ρ) + ((allIndices CD).map fun c =>
        if p.within (T.map ρ) c then
          ((allIndices XD).map (XV (T.map ρ) c)).sum * ((allIndices YD).map (YV (T.map ρ) c)).sum else 0).sum)) ∧
      ∀ c, (∀ ρ, Fits len rs ρ → c ≠ r.cell (rs.map ρ)) → m' c = m c := by
  have hlen : ∀ {L : List κ} {t : List Nat}, InRange t (L.map len) → t.length = L.length := fun h => by
    simpa using h.length
  generalize hTR : T.map (comb · rs r.strides) = TR at *
  have lTR : TR.length = T.length := by rw [← hTR]; simp
  have E := loops4_ext (T.map len) (by simpa using hT4) m (fun t m => do
    let xt := t.getD 0 0 * str TX 0 + t.getD 1 0 * str TX 1 + t.getD 2 0 * str TX 2 + t.getD 3 0 * str TX 3
    let yt := t.getD 0 0 * str TY 0 + t.getD 1 0 * str TY 1 + t.getD 2 0 * str TY 2 + t.getD 3 0 * str TX 3
    let rt := t.getD 0 0 * str TR 0 + t.getD 1 0 * str TR 1 + t.getD 2 0 * str TR 2 + t.getD 3 0 * str TX 3
    let v ← loop (p.cd 0) (0 : α) fun c0 v => loop (p.cd 1) v fun c1 v => loop (p.cd 2) v fun c2 v =>
      if p.within t [c0, c1, c2] then do
        let xc : Int := ((x.off + xt : Nat) : Int) + p.disp 0 c0 + p.disp 1 c1 + p.disp 2 c2
        let yc := yt + c0 * str CY 0 + c1 * str CY 1 + c2 * str CY 2
        let xa ← addrI xc
        let a ← sum3 m (ext XD) (str XS) xa
        let b ← sum3 m (ext YD) (str YS) (y.off + yc)
        .ok (v + a * b)
      else .ok v
    bcast3 (ext (B.map len)) (str (B.map (comb · rs r.strides))) (r.off + rt) v m)
  simp only [List.getD_cons_zero, List.getD_cons_succ] at E
  have hcd : p.cd = ext CD := by rw [hp]
  have E0 : runConvoBack p r x y m = Res.forM (allIndices (T.map len)) m (fun m t => do
    let v ← Res.forM (allIndices CD) (0 : α) fun v c =>
      if p.within t c then do
        let xa ← addrI (((x.off + dot TX t : Nat) : Int) + ((dot GS c : Nat) : Int) - ((dot VS c : Nat) : Int))
        let a ← sum3 m (ext XD) (str XS) xa
        let b ← sum3 m (ext YD) (str YS) (y.off + (dot TY t + dot CY c))
        .ok (v + a * b)
      else .ok v
    Res.forM (allIndices (B.map len)) m fun m b => do
      let c := r.off + dot TR t + dot (B.map (comb · rs r.strides)) b
      let a ← m.read c
      m.write c (a + v)) := by
    refine Eq.trans (Eq.trans ?_ E) ?_
    · unfold runConvoBack
      rw [show p.td = ext (T.map len) by rw [hp]]
      congr 1; funext t0 m
      congr 1; funext t1 m
      congr 1; funext t2 m
      congr 1; funext t3 m
      have L := limited3 p [t0, t1, t2, t3] (0 : α) (fun c0 c1 c2 v => do
        let xc : Int := ((x.off + (t0 * p.tsx 0 + t1 * p.tsx 1 + t2 * p.tsx 2 + t3 * p.tsx 3) : Nat) : Int) + p.disp 0 c0 + p.disp 1 c1 + p.disp 2 c2
        let yc := (t0 * p.tsy 0 + t1 * p.tsy 1 + t2 * p.tsy 2 + t3 * p.tsx 3) + c0 * p.csy 0 + c1 * p.csy 1 + c2 * p.csy 2
        let xa ← addrI xc
        let a ← sum3 m p.xsd p.xss xa
        let b ← sum3 m p.ysd p.yss (y.off + yc)
        .ok (v + a * b))
      simp only [List.getD_cons_zero, List.getD_cons_succ] at L
      dsimp only
      rw [L]
      simp only [hp]
    · apply forM_congr
      intro t ht m1
      have ht := hlen (mem_allIndices.1 ht)
      have d1 := dot4_pad TX t (4 - (T.map len).length) (by omega) (by omega)
      have d2 := dot4_pad TY t (4 - (T.map len).length) (by omega) (by omega)
      have d3 := dot4_pad TR t (4 - (T.map len).length) (by omega) (by omega)
      rw [← hty] at d2
      rw [← htr] at d3
      rw [d1, d2, d3]
      dsimp only
      rw [hcd]
      have F := loops3_ext CD hC3 (0 : α) (fun u v =>
        if p.within (t ++ List.replicate (4 - (T.map len).length) 0) u then do
          let xc : Int := ((x.off + dot TX t : Nat) : Int) + p.disp 0 (u.getD 0 0) + p.disp 1 (u.getD 1 0) + p.disp 2 (u.getD 2 0)
          let yc := dot TY t + u.getD 0 0 * str CY 0 + u.getD 1 0 * str CY 1 + u.getD 2 0 * str CY 2
          let xa ← addrI xc
          let a ← sum3 m1 (ext XD) (str XS) xa
          let b ← sum3 m1 (ext YD) (str YS) (y.off + yc)
          .ok (v + a * b)
        else .ok v)
      simp only [List.getD_cons_zero, List.getD_cons_succ] at F
      rw [F]
      have G : ∀ (l : List (List Nat)), (∀ u ∈ l, u.length = CD.length) → ∀ v : α, Res.forM l v (fun (s : α) ix =>
          if p.within (t ++ List.replicate (4 - (T.map len).length) 0) (ix ++ List.replicate (3 - CD.length) 0) then do
            let xa ← addrI (((x.off + dot TX t : Nat) : Int) + p.disp 0 ((ix ++ List.replicate (3 - CD.length) 0).getD 0 0) +
              p.disp 1 ((ix ++ List.replicate (3 - CD.length) 0).getD 1 0) +
              p.disp 2 ((ix ++ List.replicate (3 - CD.length) 0).getD 2 0))
            let a ← sum3 m1 (ext XD) (str XS) xa
            let b ← sum3 m1 (ext YD) (str YS) (y.off + (dot TY t + (ix ++ List.replicate (3 - CD.length) 0).getD 0 0 * str CY 0 +
              (ix ++ List.replicate (3 - CD.length) 0).getD 1 0 * str CY 1 +
              (ix ++ List.replicate (3 - CD.length) 0).getD 2 0 * str CY 2))
            .ok (s + a * b)
          else .ok s) = Res.forM l v fun v c =>
          if p.within t c then do
            let xa ← addrI (((x.off + dot TX t : Nat) : Int) + ((dot GS c : Nat) : Int) - ((dot VS c : Nat) : Int))
            let a ← sum3 m1 (ext XD) (str XS) xa
            let b ← sum3 m1 (ext YD) (str YS) (y.off + (dot TY t + dot CY c))
            .ok (v + a * b)
          else .ok v := by
        intro l hl v
        apply forM_congr
        intro u hu v
        have hu := hl u hu
        simp only [within_pad]
        have g1 := dot3_pad GS u (3 - CD.length) (by omega) (by omega)
        have g2 := dot3_pad VS u (3 - CD.length) (by omega) (by omega)
        have g3 := dot3_pad CY u (3 - CD.length) (by omega) (by omega)
        unfold dot3 at g1 g2 g3
        rw [hdisp 0 _ (by omega), hdisp 1 _ (by omega), hdisp 2 _ (by omega), ← g1, ← g2, ← g3]
        generalize u ++ List.replicate (3 - CD.length) 0 = w
        have e1 : ∀ a b c d e f g : Nat, ((a : Int) + ((b : Int) - c) + ((d : Int) - e) + ((f : Int) - g)) =
            (a : Int) + ((b + d + f : Nat) : Int) - ((c + e + g : Nat) : Int) := by
          intros; omega
        rw [e1]
        simp only [Nat.add_assoc]
      rw [G _ (fun u hu => by simpa using (mem_allIndices.1 hu).length)]
      congr 1
      funext v
      unfold bcast3
      rw [bcast3_eq m1 _ v (B.map len) _ (by simp) (by simpa using hB3)]
  rw [E0]
  subst hTR
  obtain ⟨m', h1, h2, h3⟩ := bcast_core r rs T B len hrl hdist hB hcr m R hR
    (fun t m => Res.forM (allIndices CD) (0 : α) fun v c =>
      if p.within t c then do
        let xa ← addrI (((x.off + dot TX t : Nat) : Int) + ((dot GS c : Nat) : Int) - ((dot VS c : Nat) : Int))
        let a ← sum3 m (ext XD) (str XS) xa
        let b ← sum3 m (ext YD) (str YS) (y.off + (dot TY t + dot CY c))
        .ok (v + a * b)
      else .ok v)
    (fun t => ((allIndices CD).map fun c => if p.within t c then
      ((allIndices XD).map (XV t c)).sum * ((allIndices YD).map (YV t c)).sum else 0).sum)
    (by
      intro t ht m1 hm1
      rw [forM_sum _ _ _ (fun c => if p.within t c then
        ((allIndices XD).map (XV t c)).sum * ((allIndices YD).map (YV t c)).sum else 0), zero_add]
      intro c hc v
      have hc := mem_allIndices.1 hc
      by_cases hw : p.within t c
      · rw [if_pos hw, if_pos hw]
        have hb := hbase t c ht hc hw
        have ha : addrI (((x.off + dot TX t : Nat) : Int) + ((dot GS c : Nat) : Int) - ((dot VS c : Nat) : Int)) = .ok (base t c) := by
          unfold addrI
          rw [if_pos (by omega)]
          congr 1
          omega
        rw [ha, Res.ok_bind, sum3_eq' m1 _ XD XS lXS hX3 (XV t c), Res.ok_bind, sum3_eq' m1 _ YD YS lYS hY3 (YV t c), Res.ok_bind]
        · intro u hu
          obtain ⟨e1, e2⟩ := hY t c u ht hc hu
          rw [← Nat.add_assoc, hm1 _ e2, e1]
        · intro u hu
          obtain ⟨e1, e2⟩ := hX t c u ht hc hw hu
          rw [hm1 _ e2, e1]
      · rw [if_neg hw, if_neg hw, add_zero])
  exact ⟨m', h1, fun ρ hρ => by rw [View.val, h2 ρ hρ], h3⟩

theorem dot_sel (st : List Nat) (s T : List κ) (q : κ → Prop) [DecidablePred q] (t : List Nat) (hl : s.length = st.length)
    (hT : T.Nodup) (ht : t.length = T.length) :
    dot (T.map fun k => if q k then comb k s st else 0) t = dot st (s.map fun k => if q k then asg T t k else 0) := by
  rw [dot_fun st s T (fun k => if q k then asg T t k else 0) hl hT (fun c h => by simp [asg_not_mem h ht])]
  conv => lhs; rw [← map_asg T t hT ht]
  rw [dot_eq_sum _ _ T _ _ rfl rfl, dot_eq_sum _ _ T _ _ rfl rfl]
  congr 1
  apply List.map_congr_left
  intro k _
  split <;> simp

theorem asg_append_left {V G : List κ} (hn : (V ++ G).Nodup) (c : List Nat) {i : Nat} {k : κ} (hk : V[i]? = some k) :
    asg (V ++ G) c k = c.getD i 0 := by
  obtain ⟨hi, e⟩ := List.getElem?_eq_some_iff.1 hk
  have : (V ++ G)[i]'(by rw [List.length_append]; omega) = k := by rw [List.getElem_append_left hi, e]
  rw [asg, ← this, hn.idxOf_getElem]

/-- The limits of the loops, letter by letter. -/
theorem within_iff (V T' G : List κ) (hT : (V ++ T').Nodup) (hC : (V ++ G).Nodup) (hG3 : (V ++ G).length ≤ 3)
    (lo lc dr : κ → Nat) (hsz : ∀ k ∈ V, dr k + lc k = lo k + 1) (p : P2)
    (htd : p.td = ext ((V ++ T').map lo)) (hcd : p.cd = ext ((V ++ G).map lc))
    (hlim : p.lim = fun i => decide (i < V.length)) (t c : List Nat) (ht : InRange t ((V ++ T').map lo))
    (hc : InRange c ((V ++ G).map lc)) :
    p.within t c ↔ ∀ k ∈ V, asg (V ++ G) c k ≤ asg (V ++ T') t k ∧ asg (V ++ T') t k < asg (V ++ G) c k + dr k := by
  have hV3 : V.length ≤ 3 := by rw [List.length_append] at hG3; omega
  have hcl : c.length = (V ++ G).length := by simpa using hc.length
  have key : ∀ i, i < 3 → ((p.cmin i (t.getD i 0) ≤ c.getD i 0 ∧ c.getD i 0 < p.cmax i (t.getD i 0)) ↔
      ∀ k, V[i]? = some k → asg (V ++ G) c k ≤ asg (V ++ T') t k ∧ asg (V ++ T') t k < asg (V ++ G) c k + dr k) := by
    intro i hi
    unfold P2.cmin P2.cmax
    rw [hlim, hcd, htd]
    by_cases hv : i < V.length
    · have e1 : V[i]? = some V[i] := List.getElem?_eq_getElem hv
      have e2 : ext ((V ++ G).map lc) i = lc V[i] := by
        simp only [ext, List.getD_eq_getElem?_getD, List.getElem?_map, List.getElem?_append_left hv, e1]
        rfl
      have e3 : ext ((V ++ T').map lo) i = lo V[i] := by
        simp only [ext, List.getD_eq_getElem?_getD, List.getElem?_map, List.getElem?_append_left hv, e1]
        rfl
      have hk : V[i] ∈ V := List.getElem_mem hv
      have b1 := asg_fits hc V[i] (List.mem_append_left _ hk)
      have b2 := asg_fits ht V[i] (List.mem_append_left _ hk)
      have hs := hsz _ hk
      simp only [hv, decide_true, if_true, e1, Option.some.injEq, forall_eq', e2, e3]
      rw [asg_append_left hC c e1] at b1 ⊢
      rw [asg_append_left hT t e1] at b2 ⊢
      omega
    · have e1 : V[i]? = none := List.getElem?_eq_none (by omega)
      simp only [hv, decide_false, e1]
      constructor
      · intro _ k hk; simp at hk
      · intro _
        refine ⟨Nat.zero_le _, ?_⟩
        simp only [Bool.false_eq_true, if_false]
        by_cases hi : i < (V ++ G).length
        · have e : ext ((V ++ G).map lc) i = lc (V ++ G)[i] := by
            simp only [ext, List.getD_eq_getElem?_getD, List.getElem?_map, List.getElem?_eq_getElem hi]
            rfl
          rw [e]
          have := asg_fits hc (V ++ G)[i] (List.getElem_mem hi)
          rwa [asg, hC.idxOf_getElem] at this
        · have e : ext ((V ++ G).map lc) i = 1 := by
            simp only [ext, List.getD_eq_getElem?_getD, List.getElem?_map, List.getElem?_eq_none (l := V ++ G) (i := i) (by omega)]
            rfl
          rw [e, List.getD_eq_getElem?_getD, List.getElem?_eq_none (by omega)]
          exact Nat.zero_lt_one
  unfold P2.within
  rw [key 0 (by omega), key 1 (by omega), key 2 (by omega)]
  constructor
  · rintro ⟨h0, h1, h2⟩ k hk
    obtain ⟨i, hi, e⟩ := List.mem_iff_getElem.1 hk
    have e : V[i]? = some k := by rw [List.getElem?_eq_getElem hi, e]
    have : i = 0 ∨ i = 1 ∨ i = 2 := by omega
    rcases this with rfl | rfl | rfl
    · exact h0 k e
    · exact h1 k e
    · exact h2 k e
  · intro h
    exact ⟨fun k hk => h k (List.mem_of_getElem? hk), fun k hk => h k (List.mem_of_getElem? hk),
      fun k hk => h k (List.mem_of_getElem? hk)⟩

theorem disp_letters (V G : List κ) (hC : (V ++ G).Nodup) (f : κ → Nat) (p : P2) (hcsx : p.csx = str ((V ++ G).map f))
    (hlim : p.lim = fun i => decide (i < V.length)) (i c : Nat) :
    p.disp i c = ((c * str ((V ++ G).map fun k => if k ∉ V then f k else 0) i : Nat) : Int) -
      ((c * str ((V ++ G).map fun k => if k ∈ V then f k else 0) i : Nat) : Int) := by
  unfold P2.disp
  rw [hlim, hcsx]
  by_cases hv : i < V.length
  · have hk : V[i] ∈ V := List.getElem_mem hv
    simp [str, List.getD_eq_getElem?_getD, List.getElem?_append_left, hv]
  · by_cases hi : i < (V ++ G).length
    · have hk : (V ++ G)[i] ∉ V := by
        rw [List.getElem_append_right (by omega)]
        intro h
        exact (List.nodup_append.1 hC).2.2 _ h _ (List.getElem_mem _) rfl
      simp only [hv, decide_false, str, List.getD_eq_getElem?_getD, List.getElem?_map, List.getElem?_eq_getElem hi]
      simp [hk]
    · simp only [hv, decide_false, str, List.getD_eq_getElem?_getD, List.getElem?_map,
        List.getElem?_eq_none (l := V ++ G) (i := i) (by omega)]
      simp

/-- The limited loops over given groups of letters: the output has letters `V ++ T' ++ B`, the letters of `V ++ G` are
contracted, and the first operand is read at the difference of the two values of a letter of `V`. -/
theorem convo_letters [NonUnitalNonAssocSemiring α] (o p q : View) (os ps qs V T' G SP SQ B : List κ)
    (lo lp lq dr : κ → Nat)
    (hol : os.length = o.strides.length) (hpl : ps.length = p.strides.length) (hql : qs.length = q.strides.length)
    (hdist : ∀ ρ ρ', Fits lo os ρ → Fits lo os ρ' → o.cell (os.map ρ) = o.cell (os.map ρ') → os.map ρ = os.map ρ')
    (hap : ∀ ρ σ, Fits lo os ρ → Fits lp ps σ → o.cell (os.map ρ) ≠ p.cell (ps.map σ))
    (haq : ∀ ρ σ, Fits lo os ρ → Fits lq qs σ → o.cell (os.map ρ) ≠ q.cell (qs.map σ))
    (hB : (V ++ T' ++ B).Nodup) (hcr : ∀ c, c ∈ V ++ T' ++ B ↔ c ∈ os) (hC : (V ++ G).Nodup) (hTG : ∀ k ∈ T', k ∉ G)
    (hSP : SP.Nodup) (hSP3 : SP.length ≤ 3) (hSPT : ∀ k ∈ SP, k ∉ V ++ T') (hSPC : ∀ k ∈ SP, k ∉ V ++ G)
    (hpc : ∀ k ∈ ps, k ∈ V ∨ k ∈ T' ∨ k ∈ G ∨ k ∈ SP)
    (hpT : ∀ k ∈ ps, k ∈ T' → lo k ≤ lp k) (hpG : ∀ k ∈ ps, k ∈ G → lq k ≤ lp k)
    (hsz : ∀ k ∈ V, lp k = dr k ∧ dr k + lq k = lo k + 1)
    (hq : Operand qs (V ++ T') (V ++ G) SQ V [] lo lq lq)
    (hT4 : (V ++ T').length ≤ 4) (hC3 : (V ++ G).length ≤ 3) (hB3 : B.length ≤ 3)
    (h4 : ∀ c, (V ++ T')[3]? = some c → comb c ps p.strides = tstr V qs q.strides c ∧
      comb c ps p.strides = comb c os o.strides)
    (m : Buf α) (O P Q : List Nat → α)
    (hO : ∀ ρ, Fits lo os ρ → o.val m (os.map ρ) = some (O (os.map ρ)))
    (hP : ∀ ρ, Fits lp ps ρ → p.val m (ps.map ρ) = some (P (ps.map ρ)))
    (hQ : ∀ ρ, Fits lq qs ρ → q.val m (qs.map ρ) = some (Q (qs.map ρ)))
    (pa : P2) (hpa : pa = { td := ext ((V ++ T').map lo), tsx := str ((V ++ T').map (comb · ps p.strides)), tsy := str ((V ++ T').map (tstr V qs q.strides)), tsr := str ((V ++ T').map (comb · os o.strides)), xsd := ext (SP.map lp), xss := str (SP.map (comb · ps p.strides)), ysd := ext (SQ.map lq), yss := str (SQ.map (comb · qs q.strides)), cd := ext ((V ++ G).map lq), csx := str ((V ++ G).map (comb · ps p.strides)), csy := str ((V ++ G).map (comb · qs q.strides)), bd := ext (B.map lo), bs := str (B.map (comb · os o.strides)), lim := fun i => decide (i < V.length) }) :
    ∃ m', runConvoBack pa o p q m = .ok m' ∧
      (∀ ρ, Fits lo os ρ → o.val m' (os.map ρ) = some (O (os.map ρ) + sumOver lq (fun κ =>
        if ∀ k ∈ V, κ k ≤ ρ k ∧ ρ k < κ k + dr k then
        sumOver lp (fun σ => P (ps.map fun k => if k ∈ V then ρ k - σ k else σ k)) SP κ *
        sumOver lq (fun σ => Q (qs.map σ)) SQ κ else 0) (V ++ G) ρ)) ∧
      ∀ c, (∀ ρ, Fits lo os ρ → c ≠ o.cell (os.map ρ)) → m' c = m c := by
  have hTn : (V ++ T').Nodup := (List.nodup_append.1 hB).1
  have hlen : ∀ {L : List κ} {l : κ → Nat} {t : List Nat}, InRange t (L.map l) → t.length = L.length := fun h => by
    simpa using h.length
  have hstr : ∀ {f g : κ → Nat}, (∀ c, (V ++ T')[3]? = some c → f c = g c) →
      str ((V ++ T').map f) 3 = str ((V ++ T').map g) 3 := by
    intro f g h
    simp only [str, List.getD_eq_getElem?_getD, List.getElem?_map]
    cases e : (V ++ T')[3]? with
    | none => rfl
    | some c => simpa using h c e
  have hw : ∀ t c, InRange t ((V ++ T').map lo) → InRange c ((V ++ G).map lq) → (pa.within t c ↔
      ∀ k ∈ V, asg (V ++ G) c k ≤ asg (V ++ T') t k ∧ asg (V ++ T') t k < asg (V ++ G) c k + dr k) := fun t c ht hc =>
    within_iff V T' G hTn hC hC3 lo lq dr (fun k hk => (hsz k hk).2) pa (by rw [hpa]) (by rw [hpa]) (by rw [hpa]) t c ht hc
  -- value of a letter of the first operand before its own sums
  let w : List Nat → List Nat → κ → Nat := fun t c k =>
    if k ∈ V then asg (V ++ T') t k - asg (V ++ G) c k else asg (V ++ T') t k + asg (V ++ G) c k
  have hdot : ∀ t c u, t.length = (V ++ T').length → c.length = (V ++ G).length → u.length = SP.length →
      p.cell (ps.map (w t c)) + dot (SP.map (comb · ps p.strides)) u = p.cell (ps.map fun k => w t c k + asg SP u k) := by
    intro t c u ht hc hu
    rw [← dot_asg _ _ _ _ hpl hSP hu, View.cell, View.cell, dot_add]
    omega
  have hfit : ∀ t c u, InRange t ((V ++ T').map lo) → InRange c ((V ++ G).map lq) → pa.within t c → InRange u (SP.map lp) →
      Fits lp ps fun k => w t c k + asg SP u k := by
    intro t c u ht hc hwi hu k hk
    have hwi := (hw t c ht hc).1 hwi
    dsimp only [w]
    by_cases hV : k ∈ V
    · have : k ∉ SP := fun h => hSPT k h (List.mem_append_left _ hV)
      rw [if_pos hV, asg_not_mem this (hlen hu), (hsz k hV).1]
      have := hwi k hV
      omega
    · rw [if_neg hV]
      by_cases hS : k ∈ SP
      · rw [asg_not_mem (hSPT k hS) (hlen ht), asg_not_mem (hSPC k hS) (hlen hc)]
        simpa using asg_fits hu k hS
      · rw [asg_not_mem hS (hlen hu)]
        by_cases hT : k ∈ T'
        · have hG : k ∉ V ++ G := by
            rw [List.mem_append]
            exact fun h => h.elim hV (hTG k hT)
          rw [asg_not_mem hG (hlen hc)]
          have := asg_fits ht k (List.mem_append_right _ hT)
          have := hpT k hk hT
          omega
        · have hG : k ∈ G := by
            rcases hpc k hk with h | h | h | h
            · exact absurd h hV
            · exact absurd h hT
            · exact h
            · exact absurd h hS
          have hT' : k ∉ V ++ T' := by
            rw [List.mem_append]
            exact fun h => h.elim hV hT
          rw [asg_not_mem hT' (hlen ht)]
          have := asg_fits hc k (List.mem_append_right _ hG)
          have := hpG k hk hG
          omega
  obtain ⟨m', h1, h2, h3⟩ := convo_core o p q os (V ++ T') B lo (fun i => decide (i < V.length))
    ((V ++ T').map (comb · ps p.strides)) ((V ++ T').map (tstr V qs q.strides)) ((V ++ G).map lq)
    ((V ++ G).map (comb · ps p.strides)) ((V ++ G).map fun k => if k ∉ V then comb k ps p.strides else 0)
    ((V ++ G).map fun k => if k ∈ V then comb k ps p.strides else 0) ((V ++ G).map (comb · qs q.strides))
    (SP.map lp) (SP.map (comb · ps p.strides)) (SQ.map lq) (SQ.map (comb · qs q.strides)) hol hdist hB hcr
    (by rw [List.length_map]) (by rw [List.length_map]) (by rw [List.length_map, List.length_map]) (by rw [List.length_map, List.length_map]) (by rw [List.length_map, List.length_map]) (by rw [List.length_map, List.length_map]) (by rw [List.length_map, List.length_map])
    hT4 (by rw [List.length_map]; exact hC3) (by rw [List.length_map]; exact hSP3) (by rw [List.length_map]; exact hq.S_len) hB3
    (hstr fun c hc => (h4 c hc).1) (hstr fun c hc => (h4 c hc).2) pa hpa
    (fun i c _ => disp_letters V G hC (comb · ps p.strides) pa (by rw [hpa]) (by rw [hpa]) i c)
    m O (fun t c => p.cell (ps.map (w t c))) (fun t c u => P (ps.map fun k => w t c k + asg SP u k))
    (fun t c u => Q (qs.map (idx (V ++ T') (V ++ G) SQ V t c u))) hO
    (by
      intro t c ht hc hwi
      have hwi := (hw t c ht hc).1 hwi
      rw [dot_sel p.strides ps (V ++ G) (· ∈ V) c hpl hC (hlen hc),
        dot_sel p.strides ps (V ++ G) (· ∉ V) c hpl hC (hlen hc), ← dot_asg _ _ _ _ hpl hTn (hlen ht), View.cell,
        Nat.add_assoc, Nat.add_assoc, ← dot_add, ← dot_add]
      congr 2
      apply List.map_congr_left
      intro k _
      dsimp only [w]
      by_cases hV : k ∈ V
      · have := hwi k hV
        simp only [hV, if_true, not_true, if_false]
        omega
      · simp [hV])
    (by
      intro t c u ht hc hwi hu
      rw [hdot t c u (hlen ht) (hlen hc) (hlen hu)]
      have hf := hfit t c u ht hc hwi hu
      exact ⟨hP _ hf, fun ρ hρ => (hap ρ _ hρ hf).symm⟩)
    (by
      intro t c u ht hc hu
      have hf := hq.fits ht hc hu
      have e := cell_idx q qs (V ++ T') (V ++ G) SQ V hql hTn hC hq.S_nodup t c u (hlen ht) (hlen hc) (hlen hu)
      unfold tstr
      rw [e]
      exact ⟨hQ _ hf, fun ρ hρ => (haq ρ _ hρ hf).symm⟩)
  refine ⟨m', h1, ?_, h3⟩
  intro ρ hρ
  rw [h2 ρ hρ, sumOver_eq lq _ (V ++ G) hC]
  congr 3
  apply List.map_congr_left
  intro c hc
  have hc' := mem_allIndices.1 hc
  have hc := hlen hc'
  have ht : InRange ((V ++ T').map ρ) ((V ++ T').map lo) :=
    inRange_map fun k hk => hρ k ((hcr k).1 (List.mem_append_left _ hk))
  have hρT : ∀ k, k ∈ V ++ T' → asg (V ++ T') ((V ++ T').map ρ) k = ρ k := fun k hT => by
    have := map_asg_eq (V ++ T') [k] (by simpa using hT) ρ
    simpa using this
  have hcond : pa.within ((V ++ T').map ρ) c ↔ ∀ k ∈ V, (if k ∈ V ++ G then asg (V ++ G) c k else ρ k) ≤ ρ k ∧
      ρ k < (if k ∈ V ++ G then asg (V ++ G) c k else ρ k) + dr k := by
    rw [hw _ _ ht hc']
    apply forall₂_congr
    intro k hk
    rw [hρT k (List.mem_append_left _ hk), if_pos (List.mem_append_left _ hk)]
  by_cases hwi : pa.within ((V ++ T').map ρ) c
  · rw [if_pos hwi, if_pos (hcond.1 hwi)]
    have hsQ := hq.sum Q ρ c hc
    simp only [List.not_mem_nil, if_false] at hsQ
    rw [← hsQ]
    congr 1
    rw [sumOver_eq lp _ SP hSP]
    congr 1
    apply List.map_congr_left
    intro u hu
    have hu := hlen (mem_allIndices.1 hu)
    congr 1
    apply List.map_congr_left
    intro k hk
    dsimp only [w]
    by_cases hV : k ∈ V
    · have hS : k ∉ SP := fun h => hSPT k h (List.mem_append_left _ hV)
      rw [if_pos hV, if_pos hV, asg_not_mem hS hu, hρT k (List.mem_append_left _ hV), if_neg hS,
        if_pos (List.mem_append_left _ hV)]
      rfl
    · rw [if_neg hV, if_neg hV]
      by_cases hS : k ∈ SP
      · rw [if_pos hS, asg_not_mem (hSPT k hS) (hlen ht), asg_not_mem (hSPC k hS) hc]
        omega
      · rw [if_neg hS, asg_not_mem hS hu]
        by_cases hT : k ∈ T'
        · have hG : k ∉ V ++ G := by
            rw [List.mem_append]
            exact fun h => h.elim hV (hTG k hT)
          rw [asg_not_mem hG hc, if_neg hG, hρT k (List.mem_append_right _ hT)]
          rfl
        · have hG : k ∈ G := by
            rcases hpc k hk with h | h | h | h
            · exact absurd h hV
            · exact absurd h hT
            · exact h
            · exact absurd h hS
          have hT' : k ∉ V ++ T' := by
            rw [List.mem_append]
            exact fun h => h.elim hV hT
          rw [asg_not_mem hT' (hlen ht), if_pos (List.mem_append_right _ hG)]
          omega
  · rw [if_neg hwi, if_neg fun h => hwi (hcond.2 h)]

end Einsum
end Cnine
