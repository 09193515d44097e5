import Verif.Lemmas.Einsum1
import Verif.Lemmas.SumOver
import Verif.Lemmas.EinsumForm2

namespace Cnine
namespace Einsum

variable {α : Type} {κ : Type} [DecidableEq κ]

theorem sum3_eq' [AddCommMonoid α] (m : Buf α) (base : Nat) (D S : List Nat) (hl : S.length = D.length) (h3 : D.length ≤ 3)
    (V : List Nat → α) (hV : ∀ u, InRange u D → m (base + dot S u) = some (V u)) :
    sum3 m (ext D) (str S) base = .ok ((allIndices D).map V).sum := by
  unfold sum3
  rw [sum3_eq m base D S hl h3, forM_sum _ _ _ V, zero_add]
  intro u hu v
  simp [Buf.read, hV u (mem_allIndices.1 hu)]

theorem loops3_str {σ : Type _} (D S S' : List Nat) (hl : S.length = D.length) (hl' : S'.length = D.length)
    (h3 : D.length ≤ 3) (s : σ) (f : Nat → Nat → σ → Res σ) (a b : Nat) :
    (loop (ext D 0) s fun i s => loop (ext D 1) s fun j s => loop (ext D 2) s fun k s =>
      f (a + i * str S 0 + j * str S 1 + k * str S 2) (b + i * str S' 0 + j * str S' 1 + k * str S' 2) s) =
    Res.forM (allIndices D) s fun s c => f (a + dot S c) (b + dot S' c) s := by
  have E := loops3_ext D h3 s (fun u s => f (a + u.getD 0 0 * str S 0 + u.getD 1 0 * str S 1 + u.getD 2 0 * str S 2)
    (b + u.getD 0 0 * str S' 0 + u.getD 1 0 * str S' 1 + u.getD 2 0 * str S' 2) s)
  simp only [List.getD_cons_zero, List.getD_cons_succ] at E
  rw [E]
  apply forM_congr
  intro u hu v
  have hu := (mem_allIndices.1 hu).length
  rw [← dot3_pad S u (3 - D.length) (by omega) (by omega), ← dot3_pad S' u (3 - D.length) (by omega) (by omega)]
  simp only [dot3, Nat.add_assoc]

/-- The loops of Einsum2 for given extents and strides of the operands. -/
theorem run2_core [NonUnitalNonAssocSemiring α] (r x y : View) (rs T B : List κ) (len : κ → Nat)
    (TX TY CD CX CY XD XS YD YS : List Nat)
    (hrl : rs.length = r.strides.length)
    (hdist : ∀ ρ ρ', Fits len rs ρ → Fits len rs ρ' → r.cell (rs.map ρ) = r.cell (rs.map ρ') → rs.map ρ = rs.map ρ')
    (hB : (T ++ B).Nodup) (hcr : ∀ c, c ∈ T ++ B ↔ c ∈ rs)
    (lTX : TX.length = T.length) (lTY : TY.length = T.length) (lCX : CX.length = CD.length) (lCY : CY.length = CD.length)
    (lXS : XS.length = XD.length) (lYS : YS.length = YD.length)
    (hT4 : T.length ≤ 4) (hC3 : CD.length ≤ 3) (hX3 : XD.length ≤ 3) (hY3 : YD.length ≤ 3) (hB3 : B.length ≤ 3)
    (hty : str TX 3 = str TY 3) (htr : str TX 3 = str (T.map (comb · rs r.strides)) 3)
    (m : Buf α) (R : List Nat → α) (XV YV : List Nat → List Nat → List Nat → α)
    (hR : ∀ ρ, Fits len rs ρ → r.val m (rs.map ρ) = some (R (rs.map ρ)))
    (hX : ∀ t c u, InRange t (T.map len) → InRange c CD → InRange u XD →
      m (x.off + dot TX t + dot CX c + dot XS u) = some (XV t c u) ∧
      ∀ ρ, Fits len rs ρ → x.off + dot TX t + dot CX c + dot XS u ≠ r.cell (rs.map ρ))
    (hY : ∀ t c u, InRange t (T.map len) → InRange c CD → InRange u YD →
      m (y.off + dot TY t + dot CY c + dot YS u) = some (YV t c u) ∧
      ∀ ρ, Fits len rs ρ → y.off + dot TY t + dot CY c + dot YS u ≠ r.cell (rs.map ρ)) :
    ∃ m', run2 { td := ext (T.map len), tsx := str TX, tsy := str TY, tsr := str (T.map (comb · rs r.strides)),
                 xsd := ext XD, xss := str XS, ysd := ext YD, yss := str YS, cd := ext CD, csx := str CX, csy := str CY,
                 bd := ext (B.map len), bs := str (B.map (comb · rs r.strides)) } r x y m = .ok m' ∧
      (∀ ρ, Fits len rs ρ → r.val m' (rs.map ρ) = some (R (rs.map ρ) + ((allIndices CD).map fun c =>
        ((allIndices XD).map (XV (T.map ρ) c)).sum * ((allIndices YD).map (YV (T.map ρ) c)).sum).sum)) ∧
      ∀ c, (∀ ρ, Fits len rs ρ → c ≠ r.cell (rs.map ρ)) → m' c = m c := by
  have hlen : ∀ {L : List κ} {t : List Nat}, InRange t (L.map len) → t.length = L.length := fun h => by
    simpa using h.length
  generalize hTR : T.map (comb · rs r.strides) = TR at *
  have lTR : TR.length = T.length := by rw [← hTR]; simp
  have E := loops4_ext (T.map len) (by simpa using hT4) m (fun t m => do
    let xt := t.getD 0 0 * str TX 0 + t.getD 1 0 * str TX 1 + t.getD 2 0 * str TX 2 + t.getD 3 0 * str TX 3
    let yt := t.getD 0 0 * str TY 0 + t.getD 1 0 * str TY 1 + t.getD 2 0 * str TY 2 + t.getD 3 0 * str TX 3
    let rt := t.getD 0 0 * str TR 0 + t.getD 1 0 * str TR 1 + t.getD 2 0 * str TR 2 + t.getD 3 0 * str TX 3
    let v ← loop (ext CD 0) (0 : α) fun c0 v => loop (ext CD 1) v fun c1 v => loop (ext CD 2) v fun c2 v => do
      let xc := xt + c0 * str CX 0 + c1 * str CX 1 + c2 * str CX 2
      let yc := yt + c0 * str CY 0 + c1 * str CY 1 + c2 * str CY 2
      let a ← sum3 m (ext XD) (str XS) (x.off + xc)
      let b ← sum3 m (ext YD) (str YS) (y.off + yc)
      .ok (v + a * b)
    bcast3 (ext (B.map len)) (str (B.map (comb · rs r.strides))) (r.off + rt) v m)
  simp only [List.getD_cons_zero, List.getD_cons_succ] at E
  unfold run2
  dsimp only
  rw [E, forM_congr (g := fun m t => do
    let v ← Res.forM (allIndices CD) (0 : α) fun v c => do
      let a ← sum3 m (ext XD) (str XS) (x.off + (dot TX t + dot CX c))
      let b ← sum3 m (ext YD) (str YS) (y.off + (dot TY t + dot CY c))
      .ok (v + a * b)
    Res.forM (allIndices (B.map len)) m fun m b => do
      let c := r.off + dot TR t + dot (B.map (comb · rs r.strides)) b
      let a ← m.read c
      m.write c (a + v))]
  · subst hTR
    obtain ⟨m', h1, h2, h3⟩ := bcast_core r rs T B len hrl hdist hB hcr m R hR
      (fun t m => Res.forM (allIndices CD) (0 : α) fun v c => do
        let a ← sum3 m (ext XD) (str XS) (x.off + (dot TX t + dot CX c))
        let b ← sum3 m (ext YD) (str YS) (y.off + (dot TY t + dot CY c))
        .ok (v + a * b))
      (fun t => ((allIndices CD).map fun c => ((allIndices XD).map (XV t c)).sum * ((allIndices YD).map (YV t c)).sum).sum)
      (by
        intro t ht m1 hm1
        rw [forM_sum _ _ _ (fun c => ((allIndices XD).map (XV t c)).sum * ((allIndices YD).map (YV t c)).sum), zero_add]
        intro c hc v
        have hc := mem_allIndices.1 hc
        rw [sum3_eq' m1 _ XD XS lXS hX3 (XV t c), Res.ok_bind, sum3_eq' m1 _ YD YS lYS hY3 (YV t c), Res.ok_bind]
        · intro u hu
          obtain ⟨e1, e2⟩ := hY t c u ht hc hu
          rw [← Nat.add_assoc, hm1 _ e2, e1]
        · intro u hu
          obtain ⟨e1, e2⟩ := hX t c u ht hc hu
          rw [← Nat.add_assoc, hm1 _ e2, e1])
    exact ⟨m', h1, fun ρ hρ => by rw [View.val, h2 ρ hρ], h3⟩
  · intro t ht m1
    have ht := hlen (mem_allIndices.1 ht)
    have d1 := dot4_pad TX t (4 - (T.map len).length) (by omega) (by omega)
    have d2 := dot4_pad TY t (4 - (T.map len).length) (by omega) (by omega)
    have d3 := dot4_pad TR t (4 - (T.map len).length) (by omega) (by omega)
    rw [← hty] at d2
    rw [← htr] at d3
    rw [d1, d2, d3]
    dsimp only
    rw [loops3_str CD CX CY lCX lCY hC3 (0 : α) (fun xc yc v => do
      let a ← sum3 m1 (ext XD) (str XS) (x.off + xc)
      let b ← sum3 m1 (ext YD) (str YS) (y.off + yc)
      .ok (v + a * b))]
    congr 1
    funext v
    unfold bcast3
    rw [bcast3_eq m1 _ v (B.map len) _ (by simp) (by simpa using hB3)]

/-! ### cells -/

theorem asg_not_mem {L : List κ} {v : List Nat} {c : κ} (h : c ∉ L) (hl : v.length = L.length) : asg L v c = 0 := by
  rw [asg, List.idxOf_eq_length h, List.getD_eq_getElem?_getD, List.getElem?_eq_none (by omega)]
  rfl

theorem dot_add (st : List Nat) (s : List κ) (f g : κ → Nat) :
    dot st (s.map fun c => f c + g c) = dot st (s.map f) + dot st (s.map g) := by
  induction s generalizing st with
  | nil => simp
  | cons c s ih =>
    cases st with
    | nil => simp [dot]
    | cons a st => simp only [List.map_cons, dot_cons, ih, Nat.mul_add]; omega

theorem dot_zero (st : List Nat) (s : List κ) : dot st (s.map fun _ => 0) = 0 := by
  induction s generalizing st with
  | nil => simp
  | cons c s ih =>
    cases st with
    | nil => simp [dot]
    | cons a st => simp only [List.map_cons, dot_cons, ih]; omega

theorem dot_asg (st : List Nat) (s T : List κ) (t : List Nat) (hl : s.length = st.length) (hT : T.Nodup)
    (ht : t.length = T.length) : dot st (s.map (asg T t)) = dot (T.map (comb · s st)) t := by
  have hL : (T ++ (letters s).filter fun c => decide (c ∉ T)).Nodup := by
    rw [List.nodup_append]
    refine ⟨hT, (letters_nodup s).filter _, ?_⟩
    rintro a ha b hb rfl
    simp [ha] at hb
  rw [dot_letters _ s st hL (fun c hc => by
    by_cases h : c ∈ T
    · simp [h]
    · simp [h, mem_letters, hc]) hl, List.map_append, List.map_append, dot_append _ _ _ _ (by simp),
    map_asg T t hT ht]
  have : ((letters s).filter fun c => decide (c ∉ T)).map (asg T t) =
      ((letters s).filter fun c => decide (c ∉ T)).map fun _ => 0 := by
    apply List.map_congr_left
    intro c hc
    exact asg_not_mem (by simpa using (List.mem_filter.1 hc).2) ht
  rw [this, dot_zero, Nat.add_zero]

/-- The cell of a view at an assignment that is the sum of three groups. -/
theorem cell_sum3 (v : View) (s T C S : List κ) (hl : s.length = v.strides.length) (hT : T.Nodup) (hC : C.Nodup)
    (hS : S.Nodup) (t c u : List Nat) (ht : t.length = T.length) (hc : c.length = C.length) (hu : u.length = S.length) :
    v.off + dot (T.map (comb · s v.strides)) t + dot (C.map (comb · s v.strides)) c + dot (S.map (comb · s v.strides)) u =
      v.cell (s.map fun k => asg T t k + asg C c k + asg S u k) := by
  rw [View.cell, dot_add, dot_add, dot_asg _ _ _ _ hl hT ht, dot_asg _ _ _ _ hl hC hc, dot_asg _ _ _ _ hl hS hu]
  omega

/-! ### parameters -/

theorem over_ext (D E : List Nat) : over D.length E (ext D) = ext (D ++ E) := by
  funext j
  unfold over ext
  by_cases h : D.length ≤ j
  · rw [if_pos h]
    simp only [List.getD_eq_getElem?_getD]
    rw [List.getElem?_append_right h, List.getElem?_eq_none h]
    rfl
  · rw [if_neg h]
    simp only [List.getD_eq_getElem?_getD]
    rw [List.getElem?_append_left (by omega)]

theorem over_str (D E : List Nat) : over D.length E (str D) = str (D ++ E) := by
  funext j
  unfold over str
  by_cases h : D.length ≤ j
  · rw [if_pos h]
    simp only [List.getD_eq_getElem?_getD]
    rw [List.getElem?_append_right h, List.getElem?_eq_none h]
    rfl
  · rw [if_neg h]
    simp only [List.getD_eq_getElem?_getD]
    rw [List.getElem?_append_left (by omega)]

theorem str_zeros {ι : Type _} (A : List Nat) (T : List ι) : str (A ++ T.map fun _ => 0) = str A := by
  funext j
  unfold str
  simp only [List.getD_eq_getElem?_getD]
  by_cases h : j < A.length
  · rw [List.getElem?_append_left h]
  · rw [List.getElem?_append_right (by omega), List.getElem?_eq_none (l := A) (by omega), List.getElem?_map]
    cases T[j - A.length]? <;> rfl

theorem put_ext (D : List Nat) (d : Nat) (h : D.length < 4) : put (ext D) D.length d = .ok (ext (D ++ [d])) := by
  unfold put
  rw [if_pos h, ← over_ext]
  congr 1
  have := over_cons D.length d [] (ext D)
  rw [over_nil] at this
  exact this

theorem put_str (D : List Nat) (d i : Nat) (hi : D.length = i) (h : i < 4) : put (str D) i d = .ok (str (D ++ [d])) := by
  unfold put
  rw [if_pos h, ← over_str]
  subst hi
  congr 1
  have := over_cons D.length d [] (str D)
  rw [over_nil] at this
  exact this

/-- Parameters with the transfer arrays given by lists. -/
def P2.setT (p : P2) (D A B R : List Nat) : P2 := { p with td := ext D, tsx := str A, tsy := str B, tsr := str R }

/-- Parameters with the contraction arrays given by lists. -/
def P2.setC (p : P2) (D A B : List Nat) : P2 := { p with cd := ext D, csx := str A, csy := str B }

theorem transfer1_eq2 {ι : Type _} (T : List ι) (a b : ι → List Nat) (len fx fr : ι → Nat) (x r : View) (D A B R : List Nat)
    (hd : ∀ c ∈ T, dimAt r.dims (b c) = .ok (len c)) (hx : ∀ c ∈ T, combine x.strides (a c) = .ok (fx c))
    (hr : ∀ c ∈ T, combine r.strides (b c) = .ok (fr c)) (hA : A.length = D.length)
    (hR : R.length = D.length) (hi : D.length + T.length ≤ 4) (p : P2) :
    P2.transfer1 D.length (T.map fun c => (a c, b c)) x r
      (p.setT D A B R) =
      .ok ((D ++ T.map len).length, p.setT (D ++ T.map len) (A ++ T.map fx) (B ++ T.map fun _ => 0) (R ++ T.map fr)) := by
  simp only [P2.setT, str_zeros]
  induction T generalizing D A R with
  | nil => simp [P2.transfer1]
  | cons c T ih =>
    simp only [List.length_cons] at hi
    have hlt : D.length < 4 := by omega
    simp only [List.map_cons, P2.transfer1, hd c (by simp), Res.ok_bind, put_ext D _ hlt, hx c (by simp),
      put_str A _ _ hA hlt, hr c (by simp), put_str R _ _ hR hlt]
    have := ih (D ++ [len c]) (A ++ [fx c]) (R ++ [fr c]) (fun c hc => hd c (by simp [hc]))
      (fun c hc => hx c (by simp [hc])) (fun c hc => hr c (by simp [hc])) (by simp [hA]) (by simp [hR])
      (by simp; omega)
    simp only [List.length_append, List.length_cons, List.length_nil, Nat.zero_add, List.append_assoc,
      List.singleton_append] at this
    simp only [this, List.length_append, List.length_map, List.length_cons]

theorem transfer2_eq2 {ι : Type _} (T : List ι) (a b : ι → List Nat) (len fy fr : ι → Nat) (y r : View) (D A B R : List Nat)
    (hd : ∀ c ∈ T, dimAt r.dims (b c) = .ok (len c)) (hy : ∀ c ∈ T, combine y.strides (a c) = .ok (fy c))
    (hr : ∀ c ∈ T, combine r.strides (b c) = .ok (fr c)) (hB : B.length = D.length)
    (hR : R.length = D.length) (hi : D.length + T.length ≤ 4) (p : P2) :
    P2.transfer2 D.length (T.map fun c => (a c, b c)) y r
      (p.setT D A B R) =
      .ok ((D ++ T.map len).length, p.setT (D ++ T.map len) (A ++ T.map fun _ => 0) (B ++ T.map fy) (R ++ T.map fr)) := by
  simp only [P2.setT, str_zeros]
  induction T generalizing D B R with
  | nil => simp [P2.transfer2]
  | cons c T ih =>
    simp only [List.length_cons] at hi
    have hlt : D.length < 4 := by omega
    simp only [List.map_cons, P2.transfer2, hd c (by simp), Res.ok_bind, put_ext D _ hlt, hy c (by simp),
      put_str B _ _ hB hlt, hr c (by simp), put_str R _ _ hR hlt]
    have := ih (D ++ [len c]) (B ++ [fy c]) (R ++ [fr c]) (fun c hc => hd c (by simp [hc]))
      (fun c hc => hy c (by simp [hc])) (fun c hc => hr c (by simp [hc])) (by simp [hB]) (by simp [hR])
      (by simp; omega)
    simp only [List.length_append, List.length_cons, List.length_nil, Nat.zero_add, List.append_assoc,
      List.singleton_append] at this
    simp only [this, List.length_append, List.length_map, List.length_cons]

theorem transfer12_eq2 {ι : Type _} (T : List ι) (a b e : ι → List Nat) (len fx fy fr : ι → Nat) (x y r : View)
    (D A B R : List Nat)
    (hd : ∀ c ∈ T, dimAt x.dims (a c) = .ok (len c)) (hx : ∀ c ∈ T, combine x.strides (a c) = .ok (fx c))
    (hy : ∀ c ∈ T, combine y.strides (b c) = .ok (fy c))
    (hr : ∀ c ∈ T, combine r.strides (e c) = .ok (fr c)) (hA : A.length = D.length) (hB : B.length = D.length)
    (hR : R.length = D.length) (hi : D.length + T.length ≤ 4) (p : P2) :
    P2.transfer12 D.length (T.map fun c => (a c, b c, e c)) x y r
      (p.setT D A B R) =
      .ok ((D ++ T.map len).length, p.setT (D ++ T.map len) (A ++ T.map fx) (B ++ T.map fy) (R ++ T.map fr)) := by
  simp only [P2.setT]
  induction T generalizing D A B R with
  | nil => simp [P2.transfer12]
  | cons c T ih =>
    simp only [List.length_cons] at hi
    have hlt : D.length < 4 := by omega
    simp only [List.map_cons, P2.transfer12, hd c (by simp), Res.ok_bind, put_ext D _ hlt, hx c (by simp), hy c (by simp),
      put_str A _ _ hA hlt, put_str B _ _ hB hlt, hr c (by simp), put_str R _ _ hR hlt]
    have := ih (D ++ [len c]) (A ++ [fx c]) (B ++ [fy c]) (R ++ [fr c]) (fun c hc => hd c (by simp [hc]))
      (fun c hc => hx c (by simp [hc])) (fun c hc => hy c (by simp [hc])) (fun c hc => hr c (by simp [hc])) (by simp [hA])
      (by simp [hB]) (by simp [hR]) (by simp; omega)
    simp only [List.length_append, List.length_cons, List.length_nil, Nat.zero_add, List.append_assoc,
      List.singleton_append] at this
    simp only [this, List.length_append, List.length_map, List.length_cons]

theorem contract_eq {ι : Type _} (T : List ι) (a b : ι → List Nat) (lx ly fx fy : ι → Nat) (x y : View) (D A B : List Nat)
    (hdx : ∀ c ∈ T, dimAt x.dims (a c) = .ok (lx c)) (hdy : ∀ c ∈ T, dimAt y.dims (b c) = .ok (ly c))
    (hx : ∀ c ∈ T, combine x.strides (a c) = .ok (fx c))
    (hy : ∀ c ∈ T, combine y.strides (b c) = .ok (fy c)) (hA : A.length = D.length) (hB : B.length = D.length)
    (hi : D.length + T.length ≤ 4) (p : P2) :
    P2.contract D.length (T.map fun c => (a c, b c)) x y (p.setC D A B) =
      .ok ((D ++ T.map fun c => min (lx c) (ly c)).length, p.setC (D ++ T.map fun c => min (lx c) (ly c)) (A ++ T.map fx) (B ++ T.map fy)) := by
  simp only [P2.setC]
  induction T generalizing D A B with
  | nil => simp [P2.contract]
  | cons c T ih =>
    simp only [List.length_cons] at hi
    have hlt : D.length < 4 := by omega
    simp only [List.map_cons, P2.contract, hdx c (by simp), hdy c (by simp), Res.ok_bind, put_ext D _ hlt, hx c (by simp),
      hy c (by simp), put_str A _ _ hA hlt, put_str B _ _ hB hlt]
    have := ih (D ++ [min (lx c) (ly c)]) (A ++ [fx c]) (B ++ [fy c]) (fun c hc => hdx c (by simp [hc]))
      (fun c hc => hdy c (by simp [hc]))
      (fun c hc => hx c (by simp [hc])) (fun c hc => hy c (by simp [hc])) (by simp [hA])
      (by simp [hB]) (by simp; omega)
    simp only [List.length_append, List.length_cons, List.length_nil, Nat.zero_add, List.append_assoc,
      List.singleton_append] at this
    simp only [this, List.length_append, List.length_map, List.length_cons]

end Einsum
end Cnine
