import Verif.Model.RView
import Verif.Lemmas.Regions
import Verif.Props.Mat
import Mathlib.Data.List.ProdSigma
import Mathlib.Data.List.Nodup

/-! Loops over the cells of strided views. -/

namespace Cnine

variable {α : Type _}

/-- A loop each round of which writes one cell of its own. -/
theorem cells_run {ι : Type _} (l : List ι) (dst : ι → Nat) (new : ι → α) (step : Buf α → ι → Res (Buf α))
    (m0 : Buf α) (hnd : l.Nodup) (hinj : ∀ i ∈ l, ∀ j ∈ l, dst i = dst j → i = j)
    (halloc : ∀ i ∈ l, (m0 (dst i)).isSome)
    (hstep : ∀ i ∈ l, ∀ m : Buf α, (∀ c, (∀ j ∈ l, j ≠ i → c ≠ dst j) → m c = m0 c) →
      step m i = m.write (dst i) (new i)) :
    ∃ m', Res.forM l m0 step = .ok m' ∧ (∀ i ∈ l, m' (dst i) = some (new i)) ∧
      ∀ c, (∀ i ∈ l, c ≠ dst i) → m' c = m0 c := by
  obtain ⟨m', h1, h2, h3⟩ := forM_regions l step (fun i c => c = dst i) (fun i _ => some (new i)) m0 hnd
    (by rintro i hi j hj hij c rfl e; exact hij (hinj i hi j hj e))
    (by
      intro i hi m hm
      have e : m (dst i) = m0 (dst i) := hm _ fun j hj hji e => hji (hinj j hj i hi e.symm)
      obtain ⟨a, ha⟩ := Option.isSome_iff_exists.1 (halloc i hi)
      refine ⟨fun c => if c = dst i then some (new i) else m c, ?_, ?_, ?_⟩
      · rw [hstep i hi m fun c hc => hm c hc]
        simp [Buf.write, e, ha]
      · rintro c rfl; simp
      · intro c hc; simp [hc])
  exact ⟨m', h1, fun i hi => h2 i hi _ rfl, fun c hc => h3 c hc⟩

/-- Index pairs of an `n0`×`n1` matrix in row order. -/
def pairs (n0 n1 : Nat) : List (Nat × Nat) := List.range n0 ×ˢ List.range n1

theorem mem_pairs {n0 n1 : Nat} {p : Nat × Nat} : p ∈ pairs n0 n1 ↔ p.1 < n0 ∧ p.2 < n1 := by
  obtain ⟨a, b⟩ := p; simp [pairs, List.mem_product]

theorem nodup_pairs (n0 n1 : Nat) : (pairs n0 n1).Nodup := List.nodup_range.product List.nodup_range

theorem loop2_eq {σ} (n0 n1 : Nat) (s : σ) (f : Nat → Nat → σ → Res σ) :
    loop n0 s (fun i s => loop n1 s fun j s => f i j s) =
      Res.forM (pairs n0 n1) s (fun s p => f p.1 p.2 s) := by
  unfold loop pairs
  show _ = Res.forM (List.product _ _) _ _
  unfold List.product
  rw [forM_flatMap]
  simp only [forM_map]

theorem loop_congr {σ} (n : Nat) (s : σ) (f g : Nat → σ → Res σ) (h : ∀ i, i < n → ∀ s, f i s = g i s) :
    loop n s f = loop n s g :=
  forM_congr (fun b hb s => h b (List.mem_range.1 hb) s) s

/-- The same for a loop over `0..n-1`. -/
theorem loop_cells (n : Nat) (dst : Nat → Nat) (new : Nat → α) (step : Nat → Buf α → Res (Buf α))
    (m0 : Buf α) (hinj : ∀ i, i < n → ∀ j, j < n → dst i = dst j → i = j)
    (halloc : ∀ i, i < n → (m0 (dst i)).isSome)
    (hstep : ∀ i, i < n → ∀ m : Buf α, (∀ c, (∀ j, j < n → j ≠ i → c ≠ dst j) → m c = m0 c) →
      step i m = m.write (dst i) (new i)) :
    ∃ m', loop n m0 step = .ok m' ∧ (∀ i, i < n → m' (dst i) = some (new i)) ∧
      ∀ c, (∀ i, i < n → c ≠ dst i) → m' c = m0 c := by
  obtain ⟨m', h1, h2, h3⟩ := cells_run (List.range n) dst new (fun m i => step i m) m0 List.nodup_range
    (by simpa using hinj) (by simpa using halloc) (by simpa using hstep)
  exact ⟨m', h1, by simpa using h2, by simpa using h3⟩

/-- The same for a nest of two loops. -/
theorem loop2_cells (n0 n1 : Nat) (dst : Nat → Nat → Nat) (new : Nat → Nat → α)
    (step : Nat → Nat → Buf α → Res (Buf α)) (m0 : Buf α)
    (hinj : ∀ i, i < n0 → ∀ j, j < n1 → ∀ k, k < n0 → ∀ l, l < n1 → dst i j = dst k l → i = k ∧ j = l)
    (halloc : ∀ i, i < n0 → ∀ j, j < n1 → (m0 (dst i j)).isSome)
    (hstep : ∀ i, i < n0 → ∀ j, j < n1 → ∀ m : Buf α,
      (∀ c, (∀ k, k < n0 → ∀ l, l < n1 → ¬ (k = i ∧ l = j) → c ≠ dst k l) → m c = m0 c) →
      step i j m = m.write (dst i j) (new i j)) :
    ∃ m', loop n0 m0 (fun i m => loop n1 m fun j m => step i j m) = .ok m' ∧
      (∀ i, i < n0 → ∀ j, j < n1 → m' (dst i j) = some (new i j)) ∧
      ∀ c, (∀ i, i < n0 → ∀ j, j < n1 → c ≠ dst i j) → m' c = m0 c := by
  rw [loop2_eq]
  obtain ⟨m', h1, h2, h3⟩ := cells_run (pairs n0 n1) (fun p => dst p.1 p.2) (fun p => new p.1 p.2)
    (fun m p => step p.1 p.2 m) m0 (nodup_pairs _ _)
    (by
      intro p hp q hq e
      rw [mem_pairs] at hp hq
      obtain ⟨e1, e2⟩ := hinj _ hp.1 _ hp.2 _ hq.1 _ hq.2 e
      exact Prod.ext e1 e2)
    (fun p hp => halloc _ (mem_pairs.1 hp).1 _ (mem_pairs.1 hp).2)
    (fun p hp m hm => hstep _ (mem_pairs.1 hp).1 _ (mem_pairs.1 hp).2 m fun c hc =>
      hm c fun q hq hqp => hc _ (mem_pairs.1 hq).1 _ (mem_pairs.1 hq).2 fun e => hqp (Prod.ext e.1 e.2))
  exact ⟨m', h1, fun i hi j hj => h2 (i, j) (mem_pairs.2 ⟨hi, hj⟩),
    fun c hc => h3 c fun p hp => hc _ (mem_pairs.1 hp).1 _ (mem_pairs.1 hp).2⟩

theorem write_ok {m : Buf α} {c : Nat} {a : α} (h : m c = some a) (v : α) :
    m.write c v = .ok (fun b => if b = c then some v else m b) := by
  simp [Buf.write, h]

theorem read_ok {m : Buf α} {c : Nat} {a : α} (h : m c = some a) : m.read c = .ok a := by
  simp [Buf.read, h]

theorem incCell_ok [Add α] {m : Buf α} {c : Nat} {a : α} (h : m c = some a) (t : α) :
    incCell m c t = m.write c (a + t) := by
  simp [incCell, Buf.read, h]

theorem updCell_ok {op : α → α → α} {m : Buf α} {c d : Nat} {a b : α} (h : m c = some a) (h2 : m d = some b) :
    updCell op m c d = m.write c (op a b) := by
  simp [updCell, Buf.read, h, h2]

/-- Sequences of additions from disjoint memory. -/
theorem stdAdd_ok (op : α → α → α) (m : Buf α) (src n dst : Nat) (A B : Nat → α)
    (hA : ∀ i, i < n → m (dst + i) = some (A i)) (hB : ∀ i, i < n → m (src + i) = some (B i))
    (hc : ∀ i, i < n → ∀ j, j < n → dst + i = src + j → i = j) :
    ∃ m', stdAdd op m src n dst = .ok m' ∧ (∀ i, i < n → m' (dst + i) = some (op (A i) (B i))) ∧
      ∀ c, (∀ i, i < n → c ≠ dst + i) → m' c = m c := by
  apply loop_cells n (fun i => dst + i) (fun i => op (A i) (B i))
  · intro i _ j _ e; omega
  · intro i hi; rw [hA i hi]; rfl
  · intro i hi m' hm'
    apply updCell_ok
    · rw [hm' _ fun j _ hji => by omega]; exact hA i hi
    · rw [hm' _ fun j hj hji e => hji (hc j hj i hi e.symm)]; exact hB i hi

theorem stdCopy_ok (m : Buf α) (src n dst : Nat) (B : Nat → α)
    (hA : ∀ i, i < n → (m (dst + i)).isSome) (hB : ∀ i, i < n → m (src + i) = some (B i))
    (hc : ∀ i, i < n → ∀ j, j < n → dst + i ≠ src + j) :
    ∃ m', stdCopy m src n dst = .ok m' ∧ (∀ i, i < n → m' (dst + i) = some (B i)) ∧
      ∀ c, (∀ i, i < n → c ≠ dst + i) → m' c = m c := by
  have : ¬ (src ≤ dst ∧ dst < src + n) := by
    rintro ⟨h1, h2⟩
    exact hc 0 (by omega) (dst - src) (by omega) (by omega)
  rw [stdCopy, if_neg this]
  apply loop_cells n (fun i => dst + i) B
  · intro i _ j _ e; omega
  · exact hA
  · intro i hi m' hm'
    have : m' (src + i) = some (B i) := by
      rw [hm' _ fun j hj hji e => hc j hj i hi e.symm]; exact hB i hi
    simp [copyCell, Buf.read, this]

theorem dotLoop_ok [NonUnitalNonAssocSemiring α] (n : Nat) (p q : Nat → Nat) (m : Buf α) (A B : Nat → α)
    (hA : ∀ i, i < n → m (p i) = some (A i)) (hB : ∀ i, i < n → m (q i) = some (B i)) :
    RV2.dotLoop n p q m = .ok (((List.range n).map fun i => A i * B i).sum) := by
  unfold RV2.dotLoop
  rw [loop_sum n 0 _ (fun i => A i * B i)]
  · simp
  · intro k hk t; simp [Buf.read, hA k hk, hB k hk]

theorem sumLoop_ok [AddCommMonoid α] (n : Nat) (p : Nat → Nat) (m : Buf α) (A : Nat → α)
    (hA : ∀ i, i < n → m (p i) = some (A i)) :
    RV2.sumLoop n p m = .ok (((List.range n).map A).sum) := by
  unfold RV2.sumLoop
  rw [loop_sum n 0 _ A]
  · simp
  · intro k hk t; simp [Buf.read, hA k hk]

end Cnine
