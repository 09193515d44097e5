import Verif.Lemmas.Elem2

namespace Cnine

variable {α : Type _}

/-- A loop whose iterations write pairwise disjoint regions, each from the initial contents. -/
theorem forM_regions {ι : Type _} (l : List ι) (step : Buf α → ι → Res (Buf α)) (W : ι → Nat → Prop)
    (new : ι → Nat → Option α) (m0 : Buf α) (hnd : l.Nodup)
    (hdisj : ∀ i ∈ l, ∀ j ∈ l, i ≠ j → ∀ c, W i c → ¬ W j c)
    (hstep : ∀ i ∈ l, ∀ m : Buf α, (∀ c, (∀ j ∈ l, j ≠ i → ¬ W j c) → m c = m0 c) →
      ∃ m', step m i = .ok m' ∧ (∀ c, W i c → m' c = new i c) ∧ ∀ c, ¬ W i c → m' c = m c) :
    ∃ m', Res.forM l m0 step = .ok m' ∧ (∀ i ∈ l, ∀ c, W i c → m' c = new i c) ∧
      ∀ c, (∀ i ∈ l, ¬ W i c) → m' c = m0 c := by
  suffices h : ∀ (l' : List ι) (m : Buf α), l'.Nodup → (∀ i ∈ l', i ∈ l) →
      (∀ c, (∀ j ∈ l, j ∉ l' → ¬ W j c) → m c = m0 c) →
      ∃ m', Res.forM l' m step = .ok m' ∧ (∀ i ∈ l', ∀ c, W i c → m' c = new i c) ∧
        ∀ c, (∀ i ∈ l', ¬ W i c) → m' c = m c by
    exact h l m0 hnd (fun i hi => hi) (fun c _ => rfl)
  intro l'
  induction l' with
  | nil => intro m _ _ _; exact ⟨m, rfl, by simp, by simp⟩
  | cons a l' ih =>
    intro m hnd' hsub hm
    have hal : a ∈ l := hsub a (by simp)
    rw [List.nodup_cons] at hnd'
    obtain ⟨m1, h1, h2, h3⟩ := hstep a hal m (fun c hc => hm c fun j hj hj' =>
      hc j hj (fun e => hj' (by simp [e])))
    obtain ⟨m', g1, g2, g3⟩ := ih m1 hnd'.2 (fun i hi => hsub i (by simp [hi])) (by
      intro c hc
      have hca := hc a hal hnd'.1
      rw [h3 c hca]
      apply hm c
      intro j hj hj'
      exact hc j hj (fun h => hj' (by simp [h])))
    refine ⟨m', ?_, ?_, ?_⟩
    · rw [Res.forM_cons, h1]; exact g1
    · intro i hi c hc
      rcases List.mem_cons.1 hi with rfl | hi
      · rw [g3 c fun j hj => hdisj i hal j (hsub j (by simp [hj])) (fun e => hnd'.1 (e ▸ hj)) c hc]
        exact h2 c hc
      · exact g2 i hi c hc
    · intro c hc
      rw [g3 c fun i hi => hc i (by simp [hi]), h3 c (hc a (by simp))]

end Cnine
