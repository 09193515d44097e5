import Verif.Lemmas.Einsum2

namespace Cnine
namespace Einsum

variable {α : Type} {κ : Type} [DecidableEq κ]

/-- Value of a letter in the loops: transfer part (skipped for the letters of `N`), contraction part, sum part. -/
def idx (T C S N : List κ) (t c u : List Nat) (k : κ) : Nat :=
  (if k ∈ N then 0 else asg T t k) + asg C c k + asg S u k

theorem dot_fun (st : List Nat) (s T : List κ) (w : κ → Nat) (hl : s.length = st.length) (hT : T.Nodup)
    (hw : ∀ c, c ∉ T → w c = 0) : dot st (s.map w) = dot (T.map (comb · s st)) (T.map w) := by
  have : s.map w = s.map (asg T (T.map w)) := by
    apply List.map_congr_left
    intro c _
    by_cases h : c ∈ T
    · have := map_asg_eq T [c] (by simpa using h) w
      simpa using this.symm
    · rw [hw c h, asg_not_mem h (by simp)]
  rw [this, dot_asg _ _ _ _ hl hT (by simp)]

theorem cell_idx (v : View) (s T C S N : List κ) (hl : s.length = v.strides.length) (hT : T.Nodup) (hC : C.Nodup)
    (hS : S.Nodup) (t c u : List Nat) (ht : t.length = T.length) (hc : c.length = C.length) (hu : u.length = S.length) :
    v.off + dot (T.map fun k => if k ∈ N then 0 else comb k s v.strides) t + dot (C.map (comb · s v.strides)) c +
      dot (S.map (comb · s v.strides)) u = v.cell (s.map (idx T C S N t c u)) := by
  have e : dot (T.map fun k => if k ∈ N then 0 else comb k s v.strides) t =
      dot v.strides (s.map fun k => if k ∈ N then 0 else asg T t k) := by
    rw [dot_fun v.strides s T (fun k => if k ∈ N then 0 else asg T t k) hl hT (fun c h => by
        simp [asg_not_mem h ht])]
    conv => lhs; rw [← map_asg T t hT ht]
    rw [dot_eq_sum _ _ T _ _ rfl rfl, dot_eq_sum _ _ T _ _ rfl rfl]
    congr 1
    apply List.map_congr_left
    intro k _
    split <;> simp
  have e2 : s.map (idx T C S N t c u) =
      s.map fun k => ((if k ∈ N then 0 else asg T t k) + asg C c k) + asg S u k := rfl
  rw [e, e2, View.cell, dot_add, dot_add, dot_asg _ _ _ _ hl hC hc, dot_asg _ _ _ _ hl hS hu]
  omega

/-- What an operand needs: `s` its letters, `lv` their extents, `S` its summed letters, `N` the transfer letters
that do not move it, `Z` the letters moved by both the transfer and the contraction. -/
structure Operand (s T C S N Z : List κ) (lt lc lv : κ → Nat) : Prop where
  S_nodup : S.Nodup
  S_len : S.length ≤ 3
  notT : ∀ k ∈ S, k ∉ T
  notC : ∀ k ∈ S, k ∉ C
  notZ : ∀ k ∈ S, k ∉ Z
  cover : ∀ k ∈ s, k ∈ T ∨ k ∈ C ∨ k ∈ S
  shift : ∀ k ∈ s, (k ∈ Z ↔ k ∈ T ∧ k ∈ C ∧ k ∉ N)
  skip : ∀ k ∈ s, k ∈ N → k ∈ C
  boundT : ∀ k ∈ s, k ∈ T → k ∉ C → lt k ≤ lv k
  boundC : ∀ k ∈ s, k ∈ C → k ∉ Z → lc k ≤ lv k
  boundZ : ∀ k ∈ s, k ∈ Z → lt k + lc k ≤ lv k + 1

theorem Operand.fits {s T C S N Z : List κ} {lt lc lv : κ → Nat} (h : Operand s T C S N Z lt lc lv)
    {t c u : List Nat} (ht : InRange t (T.map lt)) (hc : InRange c (C.map lc)) (hu : InRange u (S.map lv)) :
    Fits lv s (idx T C S N t c u) := by
  have lt' : t.length = T.length := by simpa using ht.length
  have lc' : c.length = C.length := by simpa using hc.length
  have lu' : u.length = S.length := by simpa using hu.length
  intro k hk
  unfold idx
  by_cases hS : k ∈ S
  · rw [asg_not_mem (h.notT k hS) lt', asg_not_mem (h.notC k hS) lc']
    simpa using asg_fits hu k hS
  · rw [asg_not_mem hS lu']
    by_cases hC : k ∈ C
    · have b1 := asg_fits hc k hC
      by_cases hZ : k ∈ Z
      · have b2 := asg_fits ht k ((h.shift k hk).1 hZ).1
        have := h.boundZ k hk hZ
        split <;> omega
      · have := h.boundC k hk hC hZ
        have e : (if k ∈ N then 0 else asg T t k) = 0 := by
          by_cases hN : k ∈ N
          · simp [hN]
          · have : k ∉ T := fun hT => hZ ((h.shift k hk).2 ⟨hT, hC, hN⟩)
            rw [asg_not_mem this lt']; simp
        omega
    · have hT : k ∈ T := by
        rcases h.cover k hk with h | h | h
        · exact h
        · exact absurd h hC
        · exact absurd h hS
      have hN : k ∉ N := fun hN => hC (h.skip k hk hN)
      have b2 := asg_fits ht k hT
      have := h.boundT k hk hT hC
      rw [asg_not_mem hC lc', if_neg hN]
      omega

theorem Operand.sum [NonUnitalNonAssocSemiring α] {s T C S N Z : List κ} {lt lc lv : κ → Nat} (h : Operand s T C S N Z lt lc lv)
    (X : List Nat → α) (ρ : κ → Nat) (c : List Nat) (hc : c.length = C.length) :
    ((allIndices (S.map lv)).map fun u => X (s.map (idx T C S N (T.map ρ) c u))).sum =
      sumOver lv (fun σ => X (s.map fun k => if k ∈ Z then ρ k + σ k else σ k)) S
        (fun k => if k ∈ C then asg C c k else ρ k) := by
  rw [sumOver_eq lv _ S h.S_nodup]
  congr 1
  apply List.map_congr_left
  intro u hu
  have lu' : u.length = S.length := by simpa using (mem_allIndices.1 hu).length
  congr 1
  apply List.map_congr_left
  intro k hk
  unfold idx
  have hρ : k ∈ T → asg T (T.map ρ) k = ρ k := fun hT => by
    have := map_asg_eq T [k] (by simpa using hT) ρ
    simpa using this
  by_cases hS : k ∈ S
  · rw [asg_not_mem (h.notT k hS) (by simp), asg_not_mem (h.notC k hS) hc]
    simp [h.notZ k hS, hS]
  · rw [asg_not_mem hS lu']
    by_cases hC : k ∈ C
    · by_cases hZ : k ∈ Z
      · obtain ⟨h1, -, h3⟩ := (h.shift k hk).1 hZ
        simp [hZ, hC, hS, h3, hρ h1]
      · have e : (if k ∈ N then 0 else asg T (T.map ρ) k) = 0 := by
          by_cases hN : k ∈ N
          · simp [hN]
          · have : k ∉ T := fun hT => hZ ((h.shift k hk).2 ⟨hT, hC, hN⟩)
            rw [asg_not_mem this (by simp)]; simp
        simp [hZ, hC, hS, e]
    · have hT : k ∈ T := by
        rcases h.cover k hk with h | h | h
        · exact h
        · exact absurd h hC
        · exact absurd h hS
      have hN : k ∉ N := fun hN => hC (h.skip k hk hN)
      have hZ : k ∉ Z := fun hZ => hC ((h.shift k hk).1 hZ).2.1
      rw [asg_not_mem hC hc]
      simp [hZ, hC, hS, hN, hρ hT]

/-- Stride of a transfer letter for an operand. -/
def tstr (N s : List κ) (st : List Nat) (k : κ) : Nat := if k ∈ N then 0 else comb k s st

/-- The loops of Einsum2 over given groups of letters. -/
theorem run2_letters [NonUnitalNonAssocSemiring α] (r x y : View) (rs xs ys T C SX SY B NX NY ZX ZY : List κ)
    (lr lx ly lc : κ → Nat)
    (hrl : rs.length = r.strides.length) (hxl : xs.length = x.strides.length) (hyl : ys.length = y.strides.length)
    (hdist : ∀ ρ ρ', Fits lr rs ρ → Fits lr rs ρ' → r.cell (rs.map ρ) = r.cell (rs.map ρ') → rs.map ρ = rs.map ρ')
    (hax : ∀ ρ σ, Fits lr rs ρ → Fits lx xs σ → r.cell (rs.map ρ) ≠ x.cell (xs.map σ))
    (hay : ∀ ρ σ, Fits lr rs ρ → Fits ly ys σ → r.cell (rs.map ρ) ≠ y.cell (ys.map σ))
    (hB : (T ++ B).Nodup) (hcr : ∀ c, c ∈ T ++ B ↔ c ∈ rs) (hC : C.Nodup)
    (hx : Operand xs T C SX NX ZX lr lc lx) (hy : Operand ys T C SY NY ZY lr lc ly)
    (hT4 : T.length ≤ 4) (hC3 : C.length ≤ 3) (hB3 : B.length ≤ 3)
    (h4 : ∀ c, T[3]? = some c → tstr NX xs x.strides c = tstr NY ys y.strides c ∧
      tstr NX xs x.strides c = comb c rs r.strides)
    (m : Buf α) (R X Y : List Nat → α)
    (hR : ∀ ρ, Fits lr rs ρ → r.val m (rs.map ρ) = some (R (rs.map ρ)))
    (hX : ∀ ρ, Fits lx xs ρ → x.val m (xs.map ρ) = some (X (xs.map ρ)))
    (hY : ∀ ρ, Fits ly ys ρ → y.val m (ys.map ρ) = some (Y (ys.map ρ))) :
    ∃ m', run2 { td := ext (T.map lr), tsx := str (T.map (tstr NX xs x.strides)), tsy := str (T.map (tstr NY ys y.strides)),
                 tsr := str (T.map (comb · rs r.strides)),
                 xsd := ext (SX.map lx), xss := str (SX.map (comb · xs x.strides)),
                 ysd := ext (SY.map ly), yss := str (SY.map (comb · ys y.strides)),
                 cd := ext (C.map lc), csx := str (C.map (comb · xs x.strides)), csy := str (C.map (comb · ys y.strides)),
                 bd := ext (B.map lr), bs := str (B.map (comb · rs r.strides)) } r x y m = .ok m' ∧
      (∀ ρ, Fits lr rs ρ → r.val m' (rs.map ρ) = some (R (rs.map ρ) + sumOver lc (fun κ =>
        sumOver lx (fun σ => X (xs.map fun k => if k ∈ ZX then ρ k + σ k else σ k)) SX κ *
        sumOver ly (fun σ => Y (ys.map fun k => if k ∈ ZY then ρ k + σ k else σ k)) SY κ) C ρ)) ∧
      ∀ c, (∀ ρ, Fits lr rs ρ → c ≠ r.cell (rs.map ρ)) → m' c = m c := by
  have hTn : T.Nodup := (List.nodup_append.1 hB).1
  have hstr : ∀ {f g : κ → Nat}, (∀ c, T[3]? = some c → f c = g c) → str (T.map f) 3 = str (T.map g) 3 := by
    intro f g h
    simp only [str, List.getD_eq_getElem?_getD, List.getElem?_map]
    cases e : T[3]? with
    | none => rfl
    | some c => simpa using h c e
  have hlen : ∀ {L : List κ} {l : κ → Nat} {t : List Nat}, InRange t (L.map l) → t.length = L.length := fun h => by
    simpa using h.length
  obtain ⟨m', h1, h2, h3⟩ := run2_core r x y rs T B lr (T.map (tstr NX xs x.strides)) (T.map (tstr NY ys y.strides))
    (C.map lc) (C.map (comb · xs x.strides)) (C.map (comb · ys y.strides)) (SX.map lx) (SX.map (comb · xs x.strides))
    (SY.map ly) (SY.map (comb · ys y.strides)) hrl hdist hB hcr (by simp) (by simp) (by simp) (by simp) (by simp) (by simp)
    hT4 (by simpa using hC3) (by simpa using hx.S_len) (by simpa using hy.S_len) hB3
    (hstr fun c hc => (h4 c hc).1) (hstr fun c hc => (h4 c hc).2) m R
    (fun t c u => X (xs.map (idx T C SX NX t c u))) (fun t c u => Y (ys.map (idx T C SY NY t c u))) hR
    (by
      intro t c u ht hc hu
      have hf := hx.fits ht hc hu
      have e := cell_idx x xs T C SX NX hxl hTn hC hx.S_nodup t c u (hlen ht) (hlen hc) (hlen hu)
      unfold tstr
      rw [e]
      exact ⟨hX _ hf, fun ρ hρ => (hax ρ _ hρ hf).symm⟩)
    (by
      intro t c u ht hc hu
      have hf := hy.fits ht hc hu
      have e := cell_idx y ys T C SY NY hyl hTn hC hy.S_nodup t c u (hlen ht) (hlen hc) (hlen hu)
      unfold tstr
      rw [e]
      exact ⟨hY _ hf, fun ρ hρ => (hay ρ _ hρ hf).symm⟩)
  refine ⟨m', h1, ?_, h3⟩
  intro ρ hρ
  rw [h2 ρ hρ, sumOver_eq lc _ C hC]
  congr 3
  apply List.map_congr_left
  intro c hc
  have hc := hlen (mem_allIndices.1 hc)
  rw [← hx.sum X ρ c hc, ← hy.sum Y ρ c hc]

/-- Entry of an array of transfer strides. -/
theorem tstr_map_eq {T N s : List κ} {st : List Nat} {f : κ → Nat} (h : ∀ k ∈ T, f k = tstr N s st k) :
    T.map f = T.map (tstr N s st) := List.map_congr_left h

end Einsum
end Cnine
