import Verif.Model.Cublas
import Verif.Lemmas.RView3
import Verif.Lemmas.CView
import Verif.Lemmas.CViewFuse
import Mathlib.Algebra.Ring.Defs
import Mathlib.Tactic.Ring

/-! What the modelled cuBLAS routines do to the memory. -/

namespace Cnine

/-- A batched real product, entry by entry. -/
theorem sgemm_ok {α : Type _} [NonUnitalNonAssocSemiring α] (al : α) (g : Gemm) (hl : g.ldOk = true) (hf : g.Fine 1) (m : Buf α)
    (R A B : Nat → Nat → Nat → α)
    (hR : ∀ t, t < g.cnt → ∀ j, j < g.n → ∀ i, i < g.m → m (g.C 1 t i j) = some (R t i j))
    (hA : ∀ t, t < g.cnt → ∀ i, i < g.m → ∀ l, l < g.k → m (g.A 1 t i l) = some (A t i l))
    (hB : ∀ t, t < g.cnt → ∀ l, l < g.k → ∀ j, j < g.n → m (g.B 1 t l j) = some (B t l j)) :
    ∃ m', sgemm al g m = .ok m' ∧
      (∀ t, t < g.cnt → ∀ j, j < g.n → ∀ i, i < g.m →
        m' (g.C 1 t i j) = some (R t i j + al * ((List.range g.k).map fun l => A t i l * B t l j).sum)) ∧
      ∀ c, (∀ t, t < g.cnt → ∀ j, j < g.n → ∀ i, i < g.m → c ≠ g.C 1 t i j) → m' c = m c := by
  have hne : ∀ {p q : Nat}, Gemm.Clear 1 p q → p ≠ q := by
    intro p q h e
    rcases h with h | h <;> omega
  have hinj : ∀ t, t < g.cnt → ∀ j, j < g.n → ∀ i, i < g.m → ∀ t', t' < g.cnt → ∀ j', j' < g.n → ∀ i', i' < g.m →
      g.C 1 t i j = g.C 1 t' i' j' → t = t' ∧ j = j' ∧ i = i' := by
    intro t ht j hj i hi t' ht' j' hj' i' hi' e
    rcases (hf t ht i hi j hj).1 t' ht' i' hi' j' hj' with h | h
    · exact ⟨h.1, h.2.2, h.2.1⟩
    · exact absurd e (hne h)
  rw [sgemm, hl, Res.assrt_true, Res.ok_bind, if_pos hf]
  apply loop3_cells g.cnt g.n g.m (fun t j i => g.C 1 t i j) _ _ m hinj
  · intro t ht j hj i hi
    rw [hR t ht j hj i hi]; rfl
  · intro t ht j hj i hi m' hm'
    have e1 : m' (g.C 1 t i j) = some (R t i j) := by
      rw [hm' _ fun t' ht' j' hj' i' hi' n e => n (hinj t' ht' j' hj' i' hi' t ht j hj i hi e.symm)]
      exact hR t ht j hj i hi
    rw [dotLoop_ok g.k _ _ m' (A t i) (fun l => B t l j), Res.ok_bind, incCell_ok e1]
    · intro l hl
      rw [hm' _ fun t' ht' j' hj' i' hi' _ => (hne (((hf t' ht' i' hi' j' hj').2 t ht l hl).1 i hi)).symm]
      exact hA t ht i hi l hl
    · intro l hl
      rw [hm' _ fun t' ht' j' hj' i' hi' _ => (hne (((hf t' ht' i' hi' j' hj').2 t ht l hl).2 j hj)).symm]
      exact hB t ht l hl j hj

/-- A batched complex product, entry by entry. -/
theorem cgemm_ok {α : Type} [Ring α] (g : Gemm) (hl : g.ldOk = true) (hf : g.Fine 2) (m : Buf α)
    (R A B : Nat → Nat → Nat → Cx α)
    (hR : ∀ t, t < g.cnt → ∀ j, j < g.n → ∀ i, i < g.m → m (g.C 2 t i j) = some (R t i j).re ∧ m (g.C 2 t i j + 1) = some (R t i j).im)
    (hA : ∀ t, t < g.cnt → ∀ i, i < g.m → ∀ l, l < g.k → m (g.A 2 t i l) = some (A t i l).re ∧ m (g.A 2 t i l + 1) = some (A t i l).im)
    (hB : ∀ t, t < g.cnt → ∀ l, l < g.k → ∀ j, j < g.n → m (g.B 2 t l j) = some (B t l j).re ∧ m (g.B 2 t l j + 1) = some (B t l j).im) :
    ∃ m', cgemm g m = .ok m' ∧
      (∀ t, t < g.cnt → ∀ j, j < g.n → ∀ i, i < g.m →
        m' (g.C 2 t i j) = some (R t i j + ((List.range g.k).map fun l => g.ta.val (A t i l) * g.tb.val (B t l j)).sum).re ∧
        m' (g.C 2 t i j + 1) = some (R t i j + ((List.range g.k).map fun l => g.ta.val (A t i l) * g.tb.val (B t l j)).sum).im) ∧
      ∀ c, (∀ t, t < g.cnt → ∀ j, j < g.n → ∀ i, i < g.m → c ≠ g.C 2 t i j ∧ c ≠ g.C 2 t i j + 1) → m' c = m c := by
  have hne : ∀ {p q : Nat}, Gemm.Clear 2 p q → p ≠ q ∧ p ≠ q + 1 ∧ p + 1 ≠ q ∧ p + 1 ≠ q + 1 := by
    intro p q h
    rcases h with h | h <;> omega
  have hcc : ∀ p ∈ idx3 g.cnt g.n g.m, ∀ q ∈ idx3 g.cnt g.n g.m, p = q ∨ Gemm.Clear 2 (g.C 2 p.1 p.2.2 p.2.1) (g.C 2 q.1 q.2.2 q.2.1) := by
    intro p hp q hq
    rw [mem_idx3] at hp hq
    rcases (hf _ hp.1 _ hp.2.2 _ hp.2.1).1 _ hq.1 _ hq.2.2 _ hq.2.1 with h | h
    · exact .inl (Prod.ext h.1 (Prod.ext h.2.2 h.2.1))
    · exact .inr h
  rw [cgemm, hl, Res.assrt_true, Res.ok_bind, if_pos hf, loop3_eq]
  obtain ⟨m', h1, h2, h3⟩ := ccells_run (idx3 g.cnt g.n g.m) (fun p => g.C 2 p.1 p.2.2 p.2.1) (fun p => g.C 2 p.1 p.2.2 p.2.1 + 1)
    (fun p => R p.1 p.2.2 p.2.1 + ((List.range g.k).map fun l => g.ta.val (A p.1 p.2.2 l) * g.tb.val (B p.1 l p.2.1)).sum)
    (fun m p => do
      let s ← csum g.k (fun l m => do
        let u ← getC (g.A 2 p.1 p.2.2 l) (g.A 2 p.1 p.2.2 l + 1) m
        let v ← getC (g.B 2 p.1 l p.2.1) (g.B 2 p.1 l p.2.1 + 1) m
        .ok (g.ta.val u * g.tb.val v)) m
      incC (g.C 2 p.1 p.2.2 p.2.1) (g.C 2 p.1 p.2.2 p.2.1 + 1) s m) m (nodup_idx3 _ _ _)
    (fun p hp q hq e => (hcc p hp q hq).resolve_right fun h => (hne h).1 e)
    (fun p hp q hq e => (hcc p hp q hq).resolve_right fun h => (hne h).2.2.2 e)
    (fun p hp q hq e => by
      rcases hcc p hp q hq with h | h
      · subst h; omega
      · exact (hne h).2.1 e)
    (fun p hp => by
      rw [mem_idx3] at hp
      obtain ⟨a, b⟩ := hR _ hp.1 _ hp.2.1 _ hp.2.2
      rw [a, b]; exact ⟨rfl, rfl⟩)
    (fun p hp m' hm' => by
      have hp' := mem_idx3.1 hp
      obtain ⟨a, b⟩ := hR _ hp'.1 _ hp'.2.1 _ hp'.2.2
      have e1 : m' (g.C 2 p.1 p.2.2 p.2.1) = some (R p.1 p.2.2 p.2.1).re := by
        rw [hm' _ fun q hq n => ⟨fun e => (hne ((hcc q hq p hp).resolve_left n)).1 e.symm,
          fun e => (hne ((hcc q hq p hp).resolve_left n)).2.2.1 e.symm⟩]; exact a
      have e2 : m' (g.C 2 p.1 p.2.2 p.2.1 + 1) = some (R p.1 p.2.2 p.2.1).im := by
        rw [hm' _ fun q hq n => ⟨fun e => (hne ((hcc q hq p hp).resolve_left n)).2.1 e.symm,
          fun e => (hne ((hcc q hq p hp).resolve_left n)).2.2.2 e.symm⟩]; exact b
      rw [csum_ok g.k _ m' (fun l => g.ta.val (A p.1 p.2.2 l) * g.tb.val (B p.1 l p.2.1)), Res.ok_bind, incC_ok e1 e2 (by omega)]
      intro l hl
      have fA : ∀ q ∈ idx3 g.cnt g.n g.m, _ := fun q hq => hne (((hf _ (mem_idx3.1 hq).1 _ (mem_idx3.1 hq).2.2 _ (mem_idx3.1 hq).2.1).2 _ hp'.1 l hl).1 _ hp'.2.2)
      have fB : ∀ q ∈ idx3 g.cnt g.n g.m, _ := fun q hq => hne (((hf _ (mem_idx3.1 hq).1 _ (mem_idx3.1 hq).2.2 _ (mem_idx3.1 hq).2.1).2 _ hp'.1 l hl).2 _ hp'.2.1)
      obtain ⟨a1, a2⟩ := hA _ hp'.1 _ hp'.2.2 l hl
      obtain ⟨b1, b2⟩ := hB _ hp'.1 l hl _ hp'.2.1
      rw [getC_ok (a := A p.1 p.2.2 l), Res.ok_bind, getC_ok (a := B p.1 l p.2.1), Res.ok_bind]
      · rw [hm' _ fun q hq _ => ⟨(fB q hq).1.symm, (fB q hq).2.2.1.symm⟩]; exact b1
      · rw [hm' _ fun q hq _ => ⟨(fB q hq).2.1.symm, (fB q hq).2.2.2.symm⟩]; exact b2
      · rw [hm' _ fun q hq _ => ⟨(fA q hq).1.symm, (fA q hq).2.2.1.symm⟩]; exact a1
      · rw [hm' _ fun q hq _ => ⟨(fA q hq).2.1.symm, (fA q hq).2.2.2.symm⟩]; exact a2)
  exact ⟨m', h1, fun t ht j hj i hi => h2 (t, j, i) (mem_idx3.2 ⟨ht, hj, hi⟩),
    fun c hc => h3 c fun p hp => hc _ (mem_idx3.1 hp).1 _ (mem_idx3.1 hp).2.1 _ (mem_idx3.1 hp).2.2⟩

/-- `axpy`, entry by entry. -/
theorem blas_saxpy_ok {α : Type _} [Add α] [Mul α] (n : Nat) (c : α) (x sx y sy : Nat) (hf : AxpyFine n x sx y sy) (m : Buf α) (X Y : Nat → α)
    (hX : ∀ i, i < n → m (x + i * sx) = some (X i)) (hY : ∀ i, i < n → m (y + i * sy) = some (Y i)) :
    ∃ m', saxpy n c x sx y sy m = .ok m' ∧ (∀ i, i < n → m' (y + i * sy) = some (Y i + c * X i)) ∧
      ∀ d, (∀ i, i < n → d ≠ y + i * sy) → m' d = m d := by
  rw [saxpy, if_pos hf]
  apply loop_cells n (fun i => y + i * sy) _ _ m (fun i hi j hj e => (hf i hi j hj).1 e)
  · intro i hi
    rw [hY i hi]; rfl
  · intro i hi m' hm'
    have e1 : m' (x + i * sx) = some (X i) := by
      rw [hm' _ fun j hj hji e => hji ((hf j hj i hi).2 e.symm)]; exact hX i hi
    have e2 : m' (y + i * sy) = some (Y i) := by
      rw [hm' _ fun j hj hji e => hji ((hf j hj i hi).1 e.symm)]; exact hY i hi
    rw [read_ok e1, Res.ok_bind, incCell_ok e2]

/-- Blocks that are the same or do not meet. -/
theorem axpyFine_one {n x y : Nat} (h : x = y ∨ x + n ≤ y ∨ y + n ≤ x) : AxpyFine n x 1 y 1 := by
  intro i hi j hj
  constructor <;> intro e <;> omega

end Cnine
