import Verif.Lemmas.Einsum2Params
import Verif.Props.Einsum1

namespace Cnine
namespace Einsum

variable {α : Type}

/-- The groups of letters of a pass with output letters `os` and operand letters `ps`, `qs`; the letters of `V` are in
all three, and the second operand is read at the sum of the output's and the first operand's value. -/
structure Groups (os ps qs V A1 A2 D1 D2 E G1 G2 SP SQ B : List Char) : Prop where
  mA : ∀ c, c ∈ A1 ++ A2 ↔ c ∈ os ∧ c ∈ ps ∧ c ∉ qs
  mD : ∀ c, c ∈ D1 ++ D2 ↔ (c ∈ os ∧ c ∈ qs ∧ c ∉ ps) ∨ c ∈ V
  mE : ∀ c, c ∈ E ↔ (c ∈ os ∧ c ∈ ps ∧ c ∈ qs) ∧ c ∉ V
  mG : ∀ c, c ∈ G1 ++ G2 ↔ (c ∈ ps ∧ c ∈ qs ∧ c ∉ os) ∨ c ∈ V
  mV : ∀ c ∈ V, c ∈ os ∧ c ∈ ps ∧ c ∈ qs
  mSP : ∀ c, c ∈ SP ↔ c ∈ ps ∧ c ∉ os ∧ c ∉ qs
  mSQ : ∀ c, c ∈ SQ ↔ c ∈ qs ∧ c ∉ os ∧ c ∉ ps
  mB : ∀ c, c ∈ B ↔ c ∈ os ∧ c ∉ ps ∧ c ∉ qs
  nA : (A1 ++ A2).Nodup
  nD : (D1 ++ D2).Nodup
  nE : E.Nodup
  nG : (G1 ++ G2).Nodup
  nSP : SP.Nodup
  nSQ : SQ.Nodup
  nB : B.Nodup
  nV : V.Nodup

theorem Groups.T {os ps qs V A1 A2 D1 D2 E G1 G2 SP SQ B : List Char} (h : Groups os ps qs V A1 A2 D1 D2 E G1 G2 SP SQ B)
    {c : Char} : c ∈ A1 ++ A2 ++ D1 ++ D2 ++ E ↔ c ∈ os ∧ (c ∈ ps ∨ c ∈ qs) := by
  have e : A1 ++ A2 ++ D1 ++ D2 ++ E = (A1 ++ A2) ++ ((D1 ++ D2) ++ E) := by simp only [List.append_assoc]
  have hv := h.mV c
  rw [e, List.mem_append, List.mem_append (t := E), h.mA, h.mD, h.mE]
  by_cases c ∈ V <;> tauto

theorem Groups.nT {os ps qs V A1 A2 D1 D2 E G1 G2 SP SQ B : List Char} (h : Groups os ps qs V A1 A2 D1 D2 E G1 G2 SP SQ B) :
    (A1 ++ A2 ++ D1 ++ D2 ++ E).Nodup := by
  have e : A1 ++ A2 ++ D1 ++ D2 ++ E = (A1 ++ A2) ++ ((D1 ++ D2) ++ E) := by simp only [List.append_assoc]
  rw [e]
  refine nodup_app h.nA (nodup_app h.nD h.nE ?_) ?_
  · intro a
    rw [h.mD, h.mE]
    tauto
  · intro a
    have := h.mV a
    rw [List.mem_append (t := E), h.mA, h.mD, h.mE]
    tauto

theorem pass2 [NonUnitalNonAssocSemiring α] {os ps qs V A1 A2 D1 D2 E G1 G2 SP SQ B : List Char}
    (h : Groups os ps qs V A1 A2 D1 D2 E G1 G2 SP SQ B) (hSP3 : SP.length ≤ 3) (hSQ3 : SQ.length ≤ 3) (hB3 : B.length ≤ 3)
    (hT4 : (A1 ++ A2 ++ D1 ++ D2 ++ E).length ≤ 4) (hC3 : (G1 ++ G2).length ≤ 3) (len dp dq : Char → Nat)
    (hcv : ∀ c ∈ V, dp c ≤ dq c ∧ len c + dp c ≤ dq c + 1)
    (o p q : View) (hod : o.dims = os.map len) (hpd : p.dims = ps.map fun c => if c ∈ V then dp c else len c)
    (hqd : q.dims = qs.map fun c => if c ∈ V then dq c else len c)
    (how : o.WF) (hpw : p.WF) (hqw : q.WF) (hdist : o.Distinct) (hap : o.Apart p) (haq : o.Apart q)
    (h4 : ∀ c, (A1 ++ A2 ++ D1 ++ D2 ++ E)[3]? = some c →
      (if c ∈ V then 0 else comb c ps p.strides) = comb c qs q.strides ∧
      (if c ∈ V then 0 else comb c ps p.strides) = comb c os o.strides)
    (m : Buf α) (O P Q : List Nat → α)
    (hO : ∀ ix, InRange ix o.dims → o.val m ix = some (O ix))
    (hP : ∀ ix, InRange ix p.dims → p.val m ix = some (P ix))
    (hQ : ∀ ix, InRange ix q.dims → q.val m ix = some (Q ix)) :
    ∃ m', (gparams (SP.map (positions · ps)) (SQ.map (positions · qs)) (B.map (positions · os))
      (A1.map fun c => (positions c ps, positions c os)) (A2.map fun c => (positions c ps, positions c os))
      (D1.map fun c => (positions c qs, positions c os)) (D2.map fun c => (positions c qs, positions c os))
      (E.map fun c => (positions c ps, positions c qs, positions c os))
      (G1.map fun c => (positions c ps, positions c qs)) (G2.map fun c => (positions c ps, positions c qs)) o p q >>=
      fun pa => run2 pa o p q m) = .ok m' ∧
      (∀ ρ, InRange (os.map ρ) o.dims → o.val m' (os.map ρ) = some (O (os.map ρ) +
        sumOver (fun c => if c ∈ V then dp c else len c) (fun σ =>
        P (ps.map σ) * Q (qs.map fun c => if c ∈ V then ρ c + σ c else σ c))
        (onlyIn (ps ++ qs) os ++ V) ρ)) ∧
      ∀ c, (∀ ρ, InRange (os.map ρ) o.dims → c ≠ o.cell (os.map ρ)) → m' c = m c := by
  set lp : Char → Nat := fun c => if c ∈ V then dp c else len c with hlp
  set lq : Char → Nat := fun c => if c ∈ V then dq c else len c with hlq
  have hol : os.length = o.strides.length := by rw [how, hod, List.length_map]
  have hpl : ps.length = p.strides.length := by rw [hpw, hpd, List.length_map]
  have hql : qs.length = q.strides.length := by rw [hqw, hqd, List.length_map]
  have hin : ∀ (s : List Char) (l ρ : Char → Nat), InRange (s.map ρ) (s.map l) ↔ Fits l s ρ := by
    intro s l ρ
    unfold InRange Fits
    rw [List.forall₂_map_left_iff, List.forall₂_map_right_iff, List.forall₂_same]
  have gT : ∀ c, c ∈ A1 ++ A2 ++ D1 ++ D2 ++ E ↔ c ∈ os ∧ (c ∈ ps ∨ c ∈ qs) := fun c => h.T
  have gp := gparams_eq os ps qs SP SQ B A1 A2 D1 D2 E G1 G2 V [] len lp lq lp o p q hod hpd hqd how hpw hqw
    (fun c hc => ((h.mSP c).1 hc).1) (fun c hc => ((h.mSQ c).1 hc).1) (fun c hc => ((h.mB c).1 hc).1) hSP3 hSQ3 hB3
    (fun c hc => by
      have h1 := (h.mA c).1 hc
      exact ⟨h1.1, h1.2.1, fun h' => absurd h' h1.2.2, fun hv => h1.2.2 (h.mV c hv).2.2⟩)
    (fun c hc => by
      rcases (h.mD c).1 hc with h1 | h1
      · exact ⟨h1.1, h1.2.1, fun h' => absurd h' h1.2.2, by simp⟩
      · exact ⟨(h.mV c h1).1, (h.mV c h1).2.2, fun _ => h1, by simp⟩)
    (fun c hc => by
      have h1 := (h.mE c).1 hc
      exact ⟨h1.1.1, h1.1.2.1, h1.1.2.2, h1.2, by simp, by simp only [hlp, if_neg h1.2]⟩)
    (fun c hc => by
      rcases (h.mG c).1 hc with h1 | h1
      · have hv : c ∉ V := fun hv => h1.2.2 (h.mV c hv).1
        exact ⟨h1.1, h1.2.1, by simp only [hlp, hlq, if_neg hv, Nat.min_self]⟩
      · exact ⟨(h.mV c h1).2.1, (h.mV c h1).2.2, by simp only [hlp, hlq, if_pos h1]; exact Nat.min_eq_left (hcv c h1).1⟩)
    hT4 (by omega)
  rw [gp, Res.ok_bind]
  have nT := h.nT
  have nC := h.nG
  have gC := h.mG
  set T := A1 ++ A2 ++ D1 ++ D2 ++ E with hTe
  set C := G1 ++ G2 with hCe
  unfold lparams
  clear_value T C
  have opP : Operand ps T C SP V [] len lp lp := by
    refine ⟨h.nSP, hSP3, ?_, ?_, ?_, ?_, ?_, ?_, ?_, ?_, ?_⟩
    · intro k; rw [h.mSP, gT]; tauto
    · intro k; have := h.mV k; rw [h.mSP, gC]; tauto
    · simp
    · intro k; rw [h.mSP, gT, gC]; tauto
    · intro k hk
      rw [gT, gC]
      simp only [List.not_mem_nil, false_iff]
      tauto
    · intro k _ hv
      exact (gC k).2 (Or.inr hv)
    · intro k _ _ hC
      have : k ∉ V := fun hv => hC ((gC k).2 (Or.inr hv))
      simp only [hlp, if_neg this, le_refl]
    · intros; exact le_refl _
    · simp
  have opQ : Operand qs T C SQ [] V len lp lq := by
    refine ⟨h.nSQ, hSQ3, ?_, ?_, ?_, ?_, ?_, ?_, ?_, ?_, ?_⟩
    · intro k; rw [h.mSQ, gT]; tauto
    · intro k; have := h.mV k; rw [h.mSQ, gC]; tauto
    · intro k; have := h.mV k; rw [h.mSQ]; tauto
    · intro k; rw [h.mSQ, gT, gC]; tauto
    · intro k hk
      have := h.mV k
      rw [gT, gC]
      simp only [List.not_mem_nil, not_false_eq_true, and_true]
      tauto
    · simp
    · intro k _ _ hC
      have : k ∉ V := fun hv => hC ((gC k).2 (Or.inr hv))
      simp only [hlq, if_neg this, le_refl]
    · intro k _ _ hZ
      simp only [hlp, hlq, if_neg hZ, le_refl]
    · intro k _ hZ
      simp only [hlp, hlq, if_pos hZ]
      exact (hcv k hZ).2
  obtain ⟨m', h1, h2, h3⟩ := run2_letters o p q os ps qs T C SP SQ B V [] [] V len lp lq lp hol hpl hql
    (distinct_letters hod hdist) (apart_letters hod hpd hap) (apart_letters hod hqd haq)
    (nodup_app nT h.nB (by intro a; rw [gT, h.mB]; tauto)) (by intro c; rw [List.mem_append, gT, h.mB]; tauto) nC
    opP opQ hT4 hC3 hB3
    (by
      intro c hc
      have := h4 c hc
      simpa only [tstr, List.not_mem_nil, if_false] using this)
    m O P Q (fun ρ hρ => hO _ (by rw [hod]; exact (hin _ _ _).2 hρ)) (fun ρ hρ => hP _ (by rw [hpd]; exact (hin _ _ _).2 hρ))
    (fun ρ hρ => hQ _ (by rw [hqd]; exact (hin _ _ _).2 hρ))
  have perm : (C ++ (SP ++ SQ)).Perm (onlyIn (ps ++ qs) os ++ V) := by
    rw [List.perm_ext_iff_of_nodup]
    · intro c
      rw [List.mem_append, List.mem_append, List.mem_append, gC, h.mSP, h.mSQ, mem_onlyIn, List.mem_append]
      tauto
    · refine nodup_app nC (nodup_app h.nSP h.nSQ ?_) ?_
      · intro a; rw [h.mSP, h.mSQ]; tauto
      · intro a; have := h.mV a; rw [List.mem_append, gC, h.mSP, h.mSQ]; tauto
    · refine nodup_app (onlyIn_nodup _ _) h.nV ?_
      intro a ha hv
      exact (mem_onlyIn.1 ha).2 (h.mV a hv).1
  refine ⟨m', h1, ?_, ?_⟩
  · intro ρ hρ
    rw [hod, hin] at hρ
    rw [h2 ρ hρ, ← sumOver_perm lp _ perm ?_ ρ, sumOver_append]
    · congr 2
      apply sumOver_congr
      intro κ _ _
      have e : sumOver lq (fun σ => Q (qs.map fun k => if k ∈ V then ρ k + σ k else σ k)) SQ κ =
          sumOver lp (fun σ => Q (qs.map fun k => if k ∈ V then ρ k + σ k else σ k)) SQ κ := by
        apply sumOver_len_congr
        intro c hc
        have : c ∉ V := fun hv => ((h.mSQ c).1 hc).2.1 (h.mV c hv).1
        simp only [hlp, hlq, if_neg this]
      rw [e]
      have := sumOver_prod lp (fun σ => P (ps.map σ)) (fun σ => Q (qs.map fun k => if k ∈ V then ρ k + σ k else σ k))
        (s := ps) (s' := qs) (fun σ σ' h => by
          dsimp only
          congr 1
          apply List.map_congr_left
          intro c hc
          rw [h c hc]) (fun σ σ' h => by
          dsimp only
          congr 1
          apply List.map_congr_left
          intro c hc
          rw [h c hc]) SP SQ (fun c hc => ((h.mSP c).1 hc).2.2) (fun c hc => ((h.mSQ c).1 hc).2.2) κ
      rw [← this]
      simp only [List.not_mem_nil, if_false]
    · refine perm.nodup_iff.2 (nodup_app (onlyIn_nodup _ _) h.nV ?_)
      intro a ha hv
      exact (mem_onlyIn.1 ha).2 (h.mV a hv).1
  · intro c hc
    refine h3 c fun ρ hρ => hc ρ ?_
    rw [hod, hin]
    exact hρ

end Einsum
end Cnine
