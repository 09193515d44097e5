import Verif.Lemmas.EinsumForm
import Verif.Lemmas.Regions
import Verif.Props.Mat

namespace Cnine
namespace Einsum

variable {α : Type} {κ : Type} [DecidableEq κ]

/-! ### loops -/

theorem loops4 {σ : Type _} (a b c d : Nat) (s : σ) (f : List Nat → σ → Res σ) :
    loop a s (fun i s => loop b s fun j s => loop c s fun k s => loop d s fun l s => f [i, j, k, l] s) =
      Res.forM (allIndices [a, b, c, d]) s (fun s ix => f ix s) := by
  simp only [allIndices, forM_flatMap, forM_map, loop, List.map_cons, List.map_nil]
  apply forM_congr
  intro i _ s
  apply forM_congr
  intro j _ s
  apply forM_congr
  intro k _ s
  apply forM_congr
  intro l _ s
  simp only [Res.forM_cons, Res.forM_nil]
  cases f [i, j, k, l] s <;> rfl

theorem allIndices_pad (D : List Nat) (k : Nat) :
    allIndices (D ++ List.replicate k 1) = (allIndices D).map (· ++ List.replicate k 0) := by
  induction D with
  | nil =>
    induction k with
    | zero => rfl
    | succ k ih =>
      simp only [List.nil_append] at ih
      simp [allIndices, List.replicate_succ, ih]
  | cons d D ih =>
    simp only [List.cons_append, allIndices, ih, List.map_flatMap, List.map_map]
    rfl

/-- An array of extents with the entries of `D` and 1 elsewhere. -/
abbrev ext (D : List Nat) : Nat → Nat := fun i => D.getD i 1
/-- An array of strides with the entries of `S` and 0 elsewhere. -/
abbrev str (S : List Nat) : Nat → Nat := fun i => S.getD i 0

theorem ext3 (D : List Nat) (h : D.length ≤ 3) :
    [ext D 0, ext D 1, ext D 2] = D ++ List.replicate (3 - D.length) 1 := by
  match D, h with
  | [], _ => rfl
  | [_], _ => rfl
  | [_, _], _ => rfl
  | [_, _, _], _ => rfl

theorem ext4 (D : List Nat) (h : D.length ≤ 4) :
    [ext D 0, ext D 1, ext D 2, ext D 3] = D ++ List.replicate (4 - D.length) 1 := by
  match D, h with
  | [], _ => rfl
  | [_], _ => rfl
  | [_, _], _ => rfl
  | [_, _, _], _ => rfl
  | [_, _, _, _], _ => rfl

/-- Sum of index times stride over the first three entries. -/
def dot3 (s : Nat → Nat) (t : List Nat) : Nat := t.getD 0 0 * s 0 + t.getD 1 0 * s 1 + t.getD 2 0 * s 2

theorem dot3_pad (S t : List Nat) (k : Nat) (h : S.length ≤ 3) (hl : t.length = S.length) :
    dot3 (str S) (t ++ List.replicate k 0) = dot S t := by
  have h0 : ∀ (k i : Nat), (List.replicate k 0).getD i 0 = 0 := by
    intro k i
    simp [List.getD_eq_getElem?_getD, List.getElem?_replicate]
    split <;> rfl
  match S, t, h, hl with
  | [], [], _, _ => simp [dot3, str]
  | [a], [i], _, _ => simp [dot3, str, Nat.mul_comm]
  | [a, b], [i, j], _, _ => simp [dot3, str, Nat.mul_comm]
  | [a, b, c], [i, j, k], _, _ => simp [dot3, str, Nat.mul_comm, Nat.add_assoc]

theorem loops3_ext {σ : Type _} (D : List Nat) (h : D.length ≤ 3) (s : σ) (f : List Nat → σ → Res σ) :
    loop (ext D 0) s (fun i s => loop (ext D 1) s fun j s => loop (ext D 2) s fun k s => f [i, j, k] s) =
      Res.forM (allIndices D) s (fun s ix => f (ix ++ List.replicate (3 - D.length) 0) s) := by
  rw [loops3, ext3 D h, allIndices_pad, forM_map]

theorem loops4_ext {σ : Type _} (D : List Nat) (h : D.length ≤ 4) (s : σ) (f : List Nat → σ → Res σ) :
    loop (ext D 0) s (fun i s => loop (ext D 1) s fun j s => loop (ext D 2) s fun k s =>
      loop (ext D 3) s fun l s => f [i, j, k, l] s) =
      Res.forM (allIndices D) s (fun s ix => f (ix ++ List.replicate (4 - D.length) 0) s) := by
  rw [loops4, ext4 D h, allIndices_pad, forM_map]

theorem forM_sum [AddCommMonoid α] {ι : Type _} (l : List ι) (t0 : α) (body : α → ι → Res α) (g : ι → α)
    (h : ∀ i ∈ l, ∀ t, body t i = .ok (t + g i)) : Res.forM l t0 body = .ok (t0 + (l.map g).sum) := by
  induction l generalizing t0 with
  | nil => simp
  | cons a l ih =>
    rw [Res.forM_cons, h a (by simp), Res.ok_bind, ih _ fun i hi => h i (by simp [hi])]
    simp [add_assoc]

/-! ### letters and strides -/

theorem comb_cons (c d : κ) (s : List κ) (a : Nat) (st : List Nat) :
    comb c (d :: s) (a :: st) = (if d = c then a else 0) + comb c s st := by simp [comb]

theorem combine_shift (v : List Nat) (a : Nat) (st : List Nat) (t : Nat) :
    Res.forM (v.map (1 + ·)) t (fun t p => do let s ← Res.get (a :: st) p; .ok (t + s)) =
    Res.forM v t (fun t p => do let s ← Res.get st p; .ok (t + s)) := by
  rw [forM_map]
  apply forM_congr
  intro p _ t
  simp [Res.get, Nat.add_comm 1 p]

theorem combine_positions (c : κ) (s : List κ) (st : List Nat) (h : s.length = st.length) (t : Nat) :
    Res.forM (positions c s) t (fun t p => do let s ← Res.get st p; .ok (t + s)) = .ok (t + comb c s st) := by
  induction s generalizing st t with
  | nil => simp [positions, comb]
  | cons d s ih =>
    cases st with
    | nil => simp at h
    | cons a st =>
      have h : s.length = st.length := by simpa using h
      rw [positions_cons, Res.forM_append, comb_cons]
      split
      · simp only [Res.forM_cons, Res.forM_nil, Res.get, List.getElem?_cons_zero, Res.ok_bind]
        have := combine_shift (positions c s) a st (t + a)
        simp only [Res.get] at this
        rw [this]
        have := ih st h (t + a)
        simp only [Res.get] at this
        rw [this, Nat.add_assoc]
      · simp only [Res.forM_nil, Res.ok_bind, combine_shift, ih st h, Nat.zero_add]

theorem combine_eq (c : κ) (s : List κ) (st : List Nat) (h : s.length = st.length) :
    combine st (positions c s) = .ok (comb c s st) := by
  have := combine_positions c s st h 0
  rw [Nat.zero_add] at this
  exact this

theorem comb_not_mem {c : κ} {s : List κ} {st : List Nat} (h : c ∉ s) : comb c s st = 0 := by
  induction s generalizing st with
  | nil => simp [comb]
  | cons d s ih =>
    cases st with
    | nil => simp [comb]
    | cons a st =>
      simp only [List.mem_cons, not_or] at h
      rw [comb_cons, if_neg (Ne.symm h.1), ih h.2]

theorem dimAt_eq (c : κ) (s : List κ) (len : κ → Nat) (h : c ∈ s) :
    dimAt (s.map len) (positions c s) = .ok (len c) := by
  have hne : positions c s ≠ [] := fun e => positions_eq_nil.1 e h
  obtain ⟨q, l, e⟩ := List.exists_cons_of_ne_nil hne
  have hq : s[q]? = some c := mem_positions.1 (by rw [e]; simp)
  simp [dimAt, e, Res.get, hq]

theorem sum_indicator (L : List κ) (hL : L.Nodup) (f : κ → Nat) (d : κ) (hd : d ∈ L) :
    (L.map fun c => if d = c then f c else 0).sum = f d := by
  induction L with
  | nil => simp at hd
  | cons c L ih =>
    rw [List.nodup_cons] at hL
    rw [List.map_cons, List.sum_cons]
    by_cases h : d = c
    · subst h
      have : (L.map fun c => if d = c then f c else 0).sum = 0 := by
        apply List.sum_eq_zero
        intro x hx
        obtain ⟨c, hc, rfl⟩ := List.mem_map.1 hx
        rw [if_neg (fun e : d = c => hL.1 (e ▸ hc))]
      rw [if_pos rfl, this, Nat.add_zero]
    · rw [if_neg h, ih hL.2 (by simpa [h] using hd), Nat.zero_add]

theorem dot_eq_sum (A B : List Nat) (L : List κ) (f g : κ → Nat) (hA : A = L.map f) (hB : B = L.map g) :
    dot A B = (L.map fun c => f c * g c).sum := by
  subst hA hB
  simp only [dot, List.zip_map', List.map_map]
  rfl

theorem dot_letters (L s : List κ) (st : List Nat) (hL : L.Nodup) (hc : ∀ c ∈ s, c ∈ L) (h : s.length = st.length)
    (ρ : κ → Nat) : dot st (s.map ρ) = dot (L.map (comb · s st)) (L.map ρ) := by
  rw [dot_eq_sum _ _ L _ _ rfl rfl]
  induction s generalizing st with
  | nil => simp [comb]
  | cons d s ih =>
    cases st with
    | nil => simp at h
    | cons a st =>
      rw [List.map_cons, dot_cons, ih st (fun c hc' => hc c (by simp [hc'])) (by simpa using h)]
      have : (L.map fun c => comb c (d :: s) (a :: st) * ρ c) =
          L.map fun c => (if d = c then a * ρ c else 0) + comb c s st * ρ c := by
        apply List.map_congr_left
        intro c _
        rw [comb_cons, Nat.add_mul]
        split <;> simp
      rw [this, List.sum_map_add, sum_indicator L hL (fun c => a * ρ c) d (hc d (by simp))]

/-! ### assignments -/

/-- The assignment giving the `i`-th letter of `L` the `i`-th value of `v`. -/
def asg (L : List κ) (v : List Nat) : κ → Nat := fun c => v.getD (L.idxOf c) 0

theorem map_asg (L : List κ) (v : List Nat) (hL : L.Nodup) (hl : v.length = L.length) : L.map (asg L v) = v := by
  apply List.ext_getElem?
  intro i
  rw [List.getElem?_map]
  by_cases h : i < L.length
  · rw [List.getElem?_eq_getElem h, Option.map_some, asg, hL.idxOf_getElem, List.getElem?_eq_getElem (by omega),
      List.getD_eq_getElem?_getD, List.getElem?_eq_getElem (by omega)]
    rfl
  · rw [List.getElem?_eq_none (by omega), List.getElem?_eq_none (by omega)]
    rfl

theorem asg_fits {L : List κ} {v : List Nat} {len : κ → Nat} (h : InRange v (L.map len)) :
    ∀ c ∈ L, asg L v c < len c := by
  intro c hc
  have hl : v.length = (L.map len).length := h.length
  rw [List.length_map] at hl
  have hi := List.idxOf_lt_length_of_mem hc
  have := (List.forall₂_iff_get.1 h).2 (L.idxOf c) (by omega) (by simpa using hi)
  simp only [List.get_eq_getElem, List.getElem_map, List.getElem_idxOf] at this
  rw [asg, List.getD_eq_getElem?_getD, List.getElem?_eq_getElem (by omega)]
  exact this

theorem inRange_map {L : List κ} {len ρ : κ → Nat} (h : ∀ c ∈ L, ρ c < len c) : InRange (L.map ρ) (L.map len) := by
  unfold InRange
  rw [List.forall₂_map_left_iff, List.forall₂_map_right_iff, List.forall₂_same]
  exact h

theorem inRange_append {a b A B : List Nat} (h1 : InRange a A) (h2 : InRange b B) : InRange (a ++ b) (A ++ B) :=
  List.rel_append h1 h2

theorem map_congr_mem {s : List κ} {ρ ρ' : κ → Nat} (h : s.map ρ = s.map ρ') : ∀ c ∈ s, ρ c = ρ' c :=
  List.map_inj_left.1 h

theorem map_asg_eq (L s : List κ) (hs : ∀ c ∈ s, c ∈ L) (ρ : κ → Nat) :
    s.map (asg L (L.map ρ)) = s.map ρ := by
  apply List.map_congr_left
  intro c hc
  have hi := List.idxOf_lt_length_of_mem (hs c hc)
  rw [asg, List.getD_eq_getElem?_getD, List.getElem?_map, List.getElem?_eq_getElem hi]
  simp

/-- The cell of a view at an assignment, split into two groups of letters. -/
theorem cell_split (v : View) (s T S : List κ) (hl : s.length = v.strides.length) (hnd : (T ++ S).Nodup)
    (hc : ∀ c ∈ s, c ∈ T ++ S) (t u : List Nat) (ht : t.length = T.length) (hu : u.length = S.length) :
    v.cell (s.map (asg (T ++ S) (t ++ u))) =
      v.off + dot (T.map (comb · s v.strides)) t + dot (S.map (comb · s v.strides)) u := by
  rw [View.cell, dot_letters (T ++ S) s v.strides hnd hc hl, map_asg _ _ hnd (by simp [ht, hu]), List.map_append,
    dot_append _ _ _ _ (by simp [ht]), Nat.add_assoc]

/-! ### parameters -/

/-- Array `base` overwritten from entry `i` on by `vals`. -/
def over (i : Nat) (vals : List Nat) (base : Nat → Nat) : Nat → Nat :=
  fun j => if i ≤ j then vals.getD (j - i) (base j) else base j

theorem over_nil (i : Nat) (base : Nat → Nat) : over i [] base = base := by
  funext j; simp [over]

theorem over_cons (i a : Nat) (vals : List Nat) (base : Nat → Nat) :
    over (i + 1) vals (fun j => if j = i then a else base j) = over i (a :: vals) base := by
  funext j
  unfold over
  dsimp only
  by_cases h : i + 1 ≤ j
  · rw [if_pos h, if_neg (show ¬ j = i by omega), if_pos (show i ≤ j by omega)]
    obtain ⟨k, rfl⟩ : ∃ k, j = i + 1 + k := ⟨j - (i + 1), by omega⟩
    rw [show i + 1 + k - (i + 1) = k by omega, show i + 1 + k - i = k + 1 by omega]
    rfl
  · rw [if_neg h]
    by_cases h2 : j = i
    · subst h2; simp
    · rw [if_neg h2, if_neg (show ¬ i ≤ j by omega)]

theorem over_zero_one (vals : List Nat) : over 0 vals (fun _ => 1) = ext vals := by funext j; simp [over]
theorem over_zero_zero (vals : List Nat) : over 0 vals (fun _ => 0) = str vals := by funext j; simp [over]

theorem fillAxes_eq (B s : List κ) (len : κ → Nat) (v : View) (hd : v.dims = s.map len)
    (hl : s.length = v.strides.length) (hB : ∀ c ∈ B, c ∈ s) (i : Nat) (hi : i + B.length ≤ 4) (ds ss : Nat → Nat) :
    fillAxes i (B.map (positions · s)) v ds ss =
      .ok (over i (B.map len) ds, over i (B.map (comb · s v.strides)) ss) := by
  induction B generalizing i ds ss with
  | nil => simp [fillAxes, over_nil]
  | cons c B ih =>
    simp only [List.length_cons] at hi
    simp only [List.map_cons, fillAxes, hd, dimAt_eq c s len (hB c (by simp)), Res.ok_bind, put,
      if_pos (show i < 4 by omega), combine_eq c s v.strides hl]
    rw [ih (fun c hc => hB c (by simp [hc])) (i + 1) (by omega), over_cons, over_cons]

theorem transfer1_eq (T s q : List κ) (len : κ → Nat) (x r : View) (hd : r.dims = q.map len)
    (hlx : s.length = x.strides.length) (hlr : q.length = r.strides.length) (hT : ∀ c ∈ T, c ∈ q) (i : Nat)
    (hi : i + T.length ≤ 4) (p : P1) :
    P1.transfer1 i (T.map fun c => (positions c s, positions c q)) x r p =
      .ok { p with td := over i (T.map len) p.td, tsx := over i (T.map (comb · s x.strides)) p.tsx,
                   tsr := over i (T.map (comb · q r.strides)) p.tsr } := by
  induction T generalizing i p with
  | nil => simp [P1.transfer1, over_nil]
  | cons c T ih =>
    simp only [List.length_cons] at hi
    simp only [List.map_cons, P1.transfer1, hd, dimAt_eq c q len (hT c (by simp)), Res.ok_bind, put,
      if_pos (show i < 4 by omega), combine_eq c s x.strides hlx, combine_eq c q r.strides hlr]
    rw [ih (fun c hc => hT c (by simp [hc])) (i + 1) (by omega)]
    simp only [over_cons]

/-! ### the scatter part shared by all einsum loops -/

/-- For each transfer index a value is computed from cells outside `r` and added to the cells of `r` for
all broadcast indices. -/
theorem bcast_core [Add α] (r : View) (rs T B : List κ) (len : κ → Nat) (hl : rs.length = r.strides.length)
    (hdist : ∀ ρ ρ', Fits len rs ρ → Fits len rs ρ' → r.cell (rs.map ρ) = r.cell (rs.map ρ') → rs.map ρ = rs.map ρ')
    (hnd : (T ++ B).Nodup) (hcov : ∀ c, c ∈ T ++ B ↔ c ∈ rs)
    (m0 : Buf α) (R : List Nat → α) (hR : ∀ ρ, Fits len rs ρ → m0 (r.cell (rs.map ρ)) = some (R (rs.map ρ)))
    (compute : List Nat → Buf α → Res α) (val : List Nat → α)
    (hcomp : ∀ t, InRange t (T.map len) → ∀ m : Buf α,
      (∀ c, (∀ ρ, Fits len rs ρ → c ≠ r.cell (rs.map ρ)) → m c = m0 c) → compute t m = .ok (val t)) :
    ∃ m', Res.forM (allIndices (T.map len)) m0 (fun m t => do
        let v ← compute t m
        Res.forM (allIndices (B.map len)) m (fun m b => do
          let c := r.off + dot (T.map (comb · rs r.strides)) t + dot (B.map (comb · rs r.strides)) b
          let a ← m.read c
          m.write c (a + v))) = .ok m' ∧
      (∀ ρ, Fits len rs ρ → m' (r.cell (rs.map ρ)) = some (R (rs.map ρ) + val (T.map ρ))) ∧
      ∀ c, (∀ ρ, Fits len rs ρ → c ≠ r.cell (rs.map ρ)) → m' c = m0 c := by
  have hfit : ∀ t b, InRange t (T.map len) → InRange b (B.map len) → Fits len rs (asg (T ++ B) (t ++ b)) := by
    intro t b ht hb c hc
    exact asg_fits (by rw [List.map_append]; exact inRange_append ht hb) c ((hcov c).2 hc)
  have hlen : ∀ {L : List κ} {t : List Nat}, InRange t (L.map len) → t.length = L.length := fun h => by
    simpa using h.length
  have hcell : ∀ t b, InRange t (T.map len) → InRange b (B.map len) →
      r.off + dot (T.map (comb · rs r.strides)) t + dot (B.map (comb · rs r.strides)) b =
        r.cell (rs.map (asg (T ++ B) (t ++ b))) := fun t b ht hb =>
    (cell_split r rs T B hl hnd (fun c hc => (hcov c).2 hc) t b (hlen ht) (hlen hb)).symm
  have hinj : ∀ t b t' b', InRange t (T.map len) → InRange b (B.map len) → InRange t' (T.map len) →
      InRange b' (B.map len) → r.cell (rs.map (asg (T ++ B) (t ++ b))) = r.cell (rs.map (asg (T ++ B) (t' ++ b'))) →
      t = t' ∧ b = b' := by
    intro t b t' b' ht hb ht' hb' e
    have e1 := hdist _ _ (hfit t b ht hb) (hfit t' b' ht' hb') e
    have e2 : (T ++ B).map (asg (T ++ B) (t ++ b)) = (T ++ B).map (asg (T ++ B) (t' ++ b')) :=
      List.map_congr_left fun c hc => map_congr_mem e1 c ((hcov c).1 hc)
    rw [map_asg _ _ hnd (by simp [hlen ht, hlen hb]), map_asg _ _ hnd (by simp [hlen ht', hlen hb'])] at e2
    exact List.append_inj e2 (by rw [hlen ht, hlen ht'])
  obtain ⟨m', h1, h2, h3⟩ := forM_regions (allIndices (T.map len)) (fun m t => do
        let v ← compute t m
        Res.forM (allIndices (B.map len)) m (fun m b => do
          let c := r.off + dot (T.map (comb · rs r.strides)) t + dot (B.map (comb · rs r.strides)) b
          let a ← m.read c
          m.write c (a + v)))
    (fun t c => ∃ b, InRange b (B.map len) ∧ c = r.cell (rs.map (asg (T ++ B) (t ++ b))))
    (fun t c => (m0 c).map (· + val t)) m0 (allIndices_nodup _)
    (by
      rintro t ht t' ht' hne c ⟨b, hb, rfl⟩ ⟨b', hb', e⟩
      exact hne (hinj t b t' b' (mem_allIndices.1 ht) hb (mem_allIndices.1 ht') hb' e).1)
    (by
      intro t ht m hm
      have ht := mem_allIndices.1 ht
      rw [hcomp t ht m (fun c hc => hm c fun t' ht' _ ⟨b', hb', e⟩ =>
        hc _ (hfit t' b' (mem_allIndices.1 ht') hb') e), Res.ok_bind]
      have hmt : ∀ b, InRange b (B.map len) → m (r.cell (rs.map (asg (T ++ B) (t ++ b)))) =
          m0 (r.cell (rs.map (asg (T ++ B) (t ++ b)))) := fun b hb =>
        hm _ fun t' ht' hne ⟨b', hb', e⟩ => hne (hinj t' b' t b (mem_allIndices.1 ht') hb' ht hb e.symm).1
      obtain ⟨m1, g1, g2, g3⟩ := forM_regions (allIndices (B.map len)) (fun m b => do
          let c := r.off + dot (T.map (comb · rs r.strides)) t + dot (B.map (comb · rs r.strides)) b
          let a ← m.read c
          m.write c (a + val t))
        (fun b c => c = r.cell (rs.map (asg (T ++ B) (t ++ b))))
        (fun _ c => (m0 c).map (· + val t)) m (allIndices_nodup _)
        (by
          rintro b hb b' hb' hne c rfl e
          exact hne (hinj t b t b' ht (mem_allIndices.1 hb) ht (mem_allIndices.1 hb') e).2)
        (by
          intro b hb m2 hm2
          have hb := mem_allIndices.1 hb
          have hv : m2 (r.cell (rs.map (asg (T ++ B) (t ++ b)))) = some (R (rs.map (asg (T ++ B) (t ++ b)))) := by
            rw [hm2 _ fun b' hb' hne e => hne (hinj t b' t b ht (mem_allIndices.1 hb') ht hb e.symm).2, hmt b hb,
              hR _ (hfit t b ht hb)]
          dsimp only
          rw [hcell t b ht hb]
          refine ⟨fun c => if c = r.cell (rs.map (asg (T ++ B) (t ++ b)))
            then some (R (rs.map (asg (T ++ B) (t ++ b))) + val t) else m2 c, ?_, ?_, ?_⟩
          · simp [Buf.read, Buf.write, hv]
          · rintro c rfl
            simp [hR _ (hfit t b ht hb)]
          · intro c hc
            simp [hc])
      refine ⟨m1, g1, ?_, ?_⟩
      · rintro c ⟨b, hb, rfl⟩
        exact g2 b (mem_allIndices.2 hb) _ rfl
      · intro c hc
        exact g3 c fun b hb e => hc ⟨b, mem_allIndices.1 hb, e⟩)
  refine ⟨m', h1, ?_, ?_⟩
  · intro ρ hρ
    have hT : InRange (T.map ρ) (T.map len) := inRange_map fun c hc => hρ c ((hcov c).1 (by simp [hc]))
    have hB : InRange (B.map ρ) (B.map len) := inRange_map fun c hc => hρ c ((hcov c).1 (by simp [hc]))
    have he : rs.map ρ = rs.map (asg (T ++ B) (T.map ρ ++ B.map ρ)) := by
      rw [← List.map_append, map_asg_eq _ _ fun c hc => (hcov c).2 hc]
    rw [h2 (T.map ρ) (mem_allIndices.2 hT) _ ⟨B.map ρ, hB, by rw [he]⟩, hR ρ hρ]
    rfl
  · intro c hc
    apply h3 c
    rintro t ht ⟨b, hb, e⟩
    exact hc _ (hfit t b (mem_allIndices.1 ht) hb) e

/-! ### sums over letters -/

theorem map_upd_not_mem {s : List κ} {c : κ} (h : c ∉ s) (ρ : κ → Nat) (i : Nat) : s.map (upd ρ c i) = s.map ρ := by
  apply List.map_congr_left
  intro d hd
  rw [upd, if_neg (fun e : d = c => h (e ▸ hd))]

/-- `sumOver` as a sum over the index tuples of the letters. -/
theorem sumOver_eq [AddCommMonoid α] (len : κ → Nat) (f : (κ → Nat) → α) (S : List κ) (hS : S.Nodup) (ρ : κ → Nat) :
    sumOver len f S ρ = ((allIndices (S.map len)).map fun u => f fun c => if c ∈ S then asg S u c else ρ c).sum := by
  induction S generalizing ρ with
  | nil => simp [sumOver, allIndices]
  | cons c S ih =>
    rw [List.nodup_cons] at hS
    simp only [sumOver, List.map_cons, allIndices, List.map_flatMap, List.map_map]
    rw [List.flatMap_def, List.sum_flatten, List.map_map]
    congr 1
    apply List.map_congr_left
    intro i _
    rw [ih hS.2]
    simp only [Function.comp]
    congr 1
    apply List.map_congr_left
    intro u _
    simp only [Function.comp]
    congr 1
    funext d
    by_cases h : d = c
    · subst h
      simp [hS.1, upd, asg]
    · have h' : ¬ c = d := fun e => h e.symm
      simp [h, upd, asg, List.idxOf_cons_ne _ h']

end Einsum
end Cnine
