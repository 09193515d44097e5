import Verif.Lemmas.EinsumEval
import Mathlib.Algebra.BigOperators.Group.Finset.Basic
import Mathlib.Algebra.BigOperators.Ring.List

namespace Cnine
namespace Einsum

variable {α : Type} {κ : Type} [DecidableEq κ]

theorem dot4_pad (S t : List Nat) (k : Nat) (h : S.length ≤ 4) (hl : t.length = S.length) :
    (t ++ List.replicate k 0).getD 0 0 * str S 0 + (t ++ List.replicate k 0).getD 1 0 * str S 1 +
      (t ++ List.replicate k 0).getD 2 0 * str S 2 + (t ++ List.replicate k 0).getD 3 0 * str S 3 = dot S t := by
  match S, t, h, hl with
  | [], [], _, _ => simp [str]
  | [a], [i], _, _ => simp [str, Nat.mul_comm]
  | [a, b], [i, j], _, _ => simp [str, Nat.mul_comm]
  | [a, b, c], [i, j, k], _, _ => simp [str, Nat.mul_comm, Nat.add_assoc]
  | [a, b, c, d], [i, j, k, l], _, _ => simp [str, Nat.mul_comm, Nat.add_assoc]

theorem sum3_eq [Zero α] [Add α] (m : Buf α) (base : Nat) (D S : List Nat) (hl : S.length = D.length) (h3 : D.length ≤ 3) (v0 : α) :
    (loop (ext D 0) v0 fun s0 v => loop (ext D 1) v fun s1 v => loop (ext D 2) v fun s2 v => do
      let a ← m.read (base + s0 * str S 0 + s1 * str S 1 + s2 * str S 2)
      .ok (v + a)) =
    Res.forM (allIndices D) v0 (fun v u => do
      let a ← m.read (base + dot S u)
      .ok (v + a)) := by
  have E := loops3_ext D h3 v0 (fun u v => do
    let a ← m.read (base + u.getD 0 0 * str S 0 + u.getD 1 0 * str S 1 + u.getD 2 0 * str S 2)
    .ok (v + a))
  simp only [List.getD_cons_zero, List.getD_cons_succ] at E
  rw [E]
  apply forM_congr
  intro u hu v
  have hu := (mem_allIndices.1 hu).length
  rw [← dot3_pad S u (3 - D.length) (by omega) (by omega)]
  simp only [dot3, Nat.add_assoc]

theorem bcast3_eq [Add α] (m : Buf α) (base : Nat) (v : α) (D S : List Nat) (hl : S.length = D.length) (h3 : D.length ≤ 3) :
    (loop (ext D 0) m fun b0 m => loop (ext D 1) m fun b1 m => loop (ext D 2) m fun b2 m => do
      let c := base + b0 * str S 0 + b1 * str S 1 + b2 * str S 2
      let a ← m.read c
      m.write c (a + v)) =
    Res.forM (allIndices D) m (fun m b => do
      let c := base + dot S b
      let a ← m.read c
      m.write c (a + v)) := by
  have E := loops3_ext D h3 m (fun u m => do
    let c := base + u.getD 0 0 * str S 0 + u.getD 1 0 * str S 1 + u.getD 2 0 * str S 2
    let a ← m.read c
    m.write c (a + v))
  simp only [List.getD_cons_zero, List.getD_cons_succ] at E
  rw [E]
  apply forM_congr
  intro u hu v
  have hu := (mem_allIndices.1 hu).length
  rw [← dot3_pad S u (3 - D.length) (by omega) (by omega)]
  simp only [dot3, Nat.add_assoc]

/-- The loops of Einsum1 over given groups of letters. -/
theorem run1_spec [AddCommMonoid α] (r x : View) (rs xs T S B : List κ) (len : κ → Nat)
    (hrl : rs.length = r.strides.length) (hxl : xs.length = x.strides.length)
    (hdist : ∀ ρ ρ', Fits len rs ρ → Fits len rs ρ' → r.cell (rs.map ρ) = r.cell (rs.map ρ') → rs.map ρ = rs.map ρ')
    (hapart : ∀ ρ ρ', Fits len rs ρ → Fits len xs ρ' → r.cell (rs.map ρ) ≠ x.cell (xs.map ρ'))
    (hB : (T ++ B).Nodup) (hS : (T ++ S).Nodup)
    (hcr : ∀ c, c ∈ T ++ B ↔ c ∈ rs) (hcx : ∀ c, c ∈ T ++ S ↔ c ∈ xs)
    (hT4 : T.length ≤ 4) (hS3 : S.length ≤ 3) (hB3 : B.length ≤ 3)
    (h4 : ∀ c, T[3]? = some c → comb c xs x.strides = comb c rs r.strides)
    (m : Buf α) (R X : List Nat → α)
    (hR : ∀ ρ, Fits len rs ρ → r.val m (rs.map ρ) = some (R (rs.map ρ)))
    (hX : ∀ ρ, Fits len xs ρ → x.val m (xs.map ρ) = some (X (xs.map ρ))) :
    ∃ m', run1 { td := ext (T.map len), tsx := str (T.map (comb · xs x.strides)),
                 tsr := str (T.map (comb · rs r.strides)), sd := ext (S.map len), ss := str (S.map (comb · xs x.strides)),
                 bd := ext (B.map len), bs := str (B.map (comb · rs r.strides)) } 0 0 r x m = .ok m' ∧
      (∀ ρ, Fits len rs ρ → r.val m' (rs.map ρ) =
        some (R (rs.map ρ) + sumOver len (fun ρ => X (xs.map ρ)) S ρ)) ∧
      ∀ c, (∀ ρ, Fits len rs ρ → c ≠ r.cell (rs.map ρ)) → m' c = m c := by
  have hlen : ∀ {L : List κ} {t : List Nat}, InRange t (L.map len) → t.length = L.length := fun h => by
    simpa using h.length
  have e4 : str (T.map (comb · xs x.strides)) 3 = str (T.map (comb · rs r.strides)) 3 := by
    simp only [str, List.getD_eq_getElem?_getD, List.getElem?_map]
    cases h : T[3]? with
    | none => rfl
    | some c => simpa using h4 c h
  have E := loops4_ext (T.map len) (by simpa using hT4) m (fun t m => do
    let v ← loop (ext (S.map len) 0) (0 : α) fun s0 v => loop (ext (S.map len) 1) v fun s1 v =>
      loop (ext (S.map len) 2) v fun s2 v => do
        let a ← m.read (x.off + (0 + t.getD 0 0 * str (T.map (comb · xs x.strides)) 0 +
          t.getD 1 0 * str (T.map (comb · xs x.strides)) 1 + t.getD 2 0 * str (T.map (comb · xs x.strides)) 2 +
          t.getD 3 0 * str (T.map (comb · xs x.strides)) 3) + s0 * str (S.map (comb · xs x.strides)) 0 +
          s1 * str (S.map (comb · xs x.strides)) 1 + s2 * str (S.map (comb · xs x.strides)) 2)
        .ok (v + a)
    loop (ext (B.map len) 0) m fun b0 m => loop (ext (B.map len) 1) m fun b1 m => loop (ext (B.map len) 2) m fun b2 m => do
      let c := r.off + (0 + t.getD 0 0 * str (T.map (comb · rs r.strides)) 0 +
          t.getD 1 0 * str (T.map (comb · rs r.strides)) 1 + t.getD 2 0 * str (T.map (comb · rs r.strides)) 2 +
          t.getD 3 0 * str (T.map (comb · xs x.strides)) 3) + b0 * str (B.map (comb · rs r.strides)) 0 +
          b1 * str (B.map (comb · rs r.strides)) 1 + b2 * str (B.map (comb · rs r.strides)) 2
      let a ← m.read c
      m.write c (a + v))
  simp only [List.getD_cons_zero, List.getD_cons_succ] at E
  unfold run1
  dsimp only
  rw [E, forM_congr (g := fun m t => do
    let v ← Res.forM (allIndices (S.map len)) (0 : α) fun v u => do
        let a ← m.read (x.off + dot (T.map (comb · xs x.strides)) t + dot (S.map (comb · xs x.strides)) u)
        .ok (v + a)
    Res.forM (allIndices (B.map len)) m fun m b => do
      let c := r.off + dot (T.map (comb · rs r.strides)) t + dot (B.map (comb · rs r.strides)) b
      let a ← m.read c
      m.write c (a + v))]
  · obtain ⟨m', h1, h2, h3⟩ := bcast_core r rs T B len hrl hdist hB hcr m R hR
      (fun t m => Res.forM (allIndices (S.map len)) (0 : α) fun v u => do
        let a ← m.read (x.off + dot (T.map (comb · xs x.strides)) t + dot (S.map (comb · xs x.strides)) u)
        .ok (v + a))
      (fun t => ((allIndices (S.map len)).map fun u => X (xs.map (asg (T ++ S) (t ++ u)))).sum)
      (by
        intro t ht m1 hm1
        rw [forM_sum _ _ _ (fun u => X (xs.map (asg (T ++ S) (t ++ u)))), zero_add]
        intro u hu v
        have hu := mem_allIndices.1 hu
        have hf : Fits len xs (asg (T ++ S) (t ++ u)) := fun c hc =>
          asg_fits (by rw [List.map_append]; exact inRange_append ht hu) c ((hcx c).2 hc)
        rw [← cell_split x xs T S hxl hS (fun c hc => (hcx c).2 hc) t u (hlen ht) (hlen hu)]
        have := hX _ hf
        rw [View.val, ← hm1 _ fun ρ hρ => (hapart ρ _ hρ hf).symm] at this
        simp [Buf.read, this])
    refine ⟨m', h1, ?_, h3⟩
    intro ρ hρ
    rw [View.val, h2 ρ hρ, sumOver_eq len _ S (List.nodup_append.1 hS).2.1 ρ]
    congr 3
    apply List.map_congr_left
    intro u hu
    congr 1
    apply List.map_congr_left
    intro c hc
    have hc' := (hcx c).2 hc
    by_cases h : c ∈ S
    · have hT : c ∉ T := fun h' => (List.nodup_append.1 hS).2.2 c h' c h rfl
      simp [h, asg, List.idxOf_append, hT, List.getD_eq_getElem?_getD]
      rw [List.getElem?_append_right (by simp)]
      simp
    · have hT : c ∈ T := by simpa [h] using hc'
      have hi := List.idxOf_lt_length_of_mem hT
      simp [h, asg, List.idxOf_append, hT, List.getD_eq_getElem?_getD]
      rw [List.getElem?_append_left (by simpa using hi), List.getElem?_map, List.getElem?_eq_getElem hi]
      simp
  · intro t ht m1
    have ht := hlen (mem_allIndices.1 ht)
    have hk : (T.map len).length = T.length := by simp
    have d1 := dot4_pad (T.map (comb · xs x.strides)) t (4 - (T.map len).length) (by simpa using hT4) (by simpa using ht)
    have d2 := dot4_pad (T.map (comb · rs r.strides)) t (4 - (T.map len).length) (by simpa using hT4) (by simpa using ht)
    rw [← e4] at d2
    simp only [Nat.zero_add]
    rw [d1, d2]
    rw [sum3_eq m1 _ (S.map len) _ (by simp) (by simpa using hS3)]
    congr 1
    funext v
    rw [bcast3_eq m1 _ v (B.map len) _ (by simp) (by simpa using hB3)]

/-- A regular view labelled by a string: distinct assignments address distinct cells. -/
theorem distinct_letters {r : View} {rs : List κ} {len : κ → Nat} (hrd : r.dims = rs.map len) (hdist : r.Distinct) :
    ∀ ρ ρ', Fits len rs ρ → Fits len rs ρ' → r.cell (rs.map ρ) = r.cell (rs.map ρ') → rs.map ρ = rs.map ρ' :=
  fun _ _ h h' e => hdist _ _ (by rw [hrd]; exact inRange_map h) (by rw [hrd]; exact inRange_map h') e

theorem apart_letters {r x : View} {rs xs : List κ} {len len' : κ → Nat} (hrd : r.dims = rs.map len)
    (hxd : x.dims = xs.map len') (hap : r.Apart x) :
    ∀ ρ ρ', Fits len rs ρ → Fits len' xs ρ' → r.cell (rs.map ρ) ≠ x.cell (xs.map ρ') :=
  fun _ _ h h' => hap _ _ (by rw [hrd]; exact inRange_map h) (by rw [hxd]; exact inRange_map h')

end Einsum
end Cnine
