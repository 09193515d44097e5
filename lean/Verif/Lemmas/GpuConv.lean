import Verif.Spec.GpuConv
import Verif.Lemmas.GpuR
import Mathlib.Algebra.BigOperators.Intervals
import Mathlib.Tactic.Ring

/-!
# Kernels that add up products
-/

namespace Cnine

open Finset

variable {α ι κ : Type}

namespace Gpu

/-- A piece of code that adds `c` to what it is given and reads only cells of `R`. -/
structure Accum [Add α] (m : Buf α) (R W : Nat → Prop) (f : α → Thr α α) (c : α) : Prop where
  run : ∀ t, (f t).run m = .ok (m, t + c)
  within : ∀ t, Within R W (f t)

theorem Accum.loop [AddCommMonoid α] {m : Buf α} {R W : Nat → Prop} {n : Nat} {f : Nat → α → Thr α α} {c : Nat → α} (h : ∀ i, i < n → Accum m R W (f i) (c i)) :
    Accum m R W (fun t => Thr.loop n t f) (∑ i ∈ range n, c i) := by
  refine ⟨fun t => ?_, fun t => Within.loop fun i hi b => (h i hi).within b⟩
  refine Thr.run_loop n t f (fun i => t + ∑ j ∈ range i, c j) (by simp) fun i hi => ?_
  rw [(h i hi).run, sum_range_succ, add_assoc]

/-- Then the sum is added to a cell. -/
theorem Accum.one [AddZeroClass α] {m : Buf α} {R : Nat → Prop} {dst : Nat} {f : α → Thr α α} {c a : α} (h : Accum m R (· = dst) f c) (ha : m dst = some a) :
    One m (do let t ← f 0; Thr.inc dst t) dst (a + c) R := by
  refine ⟨(h.within 0).bind fun t => Within.inc rfl, ?_⟩
  rw [Thr.run_bind, h.run, Res.ok_bind, zero_add]
  exact Thr.run_inc _ ha

theorem Thr.run_rdI {m : Buf α} {p : Int} {q : Nat} {v : α} (e : p = q) (h : m q = some v) : (Thr.rdI p).run m = .ok (m, v) := by
  subst e
  rw [Thr.rdI, if_pos (Int.natCast_nonneg q), Int.toNat_natCast]
  exact Thr.run_rd h

theorem Within.rdI {R W : Nat → Prop} {p : Int} (h : 0 ≤ p → R p.toNat) : Within R W (Thr.rdI p : Thr α α) := by
  rw [Thr.rdI]
  split
  · exact Within.rd (.inl (h ‹_›))
  · trivial

theorem Accum.mulAdd [Add α] [Mul α] {m : Buf α} {R W : Nat → Prop} {xa wa : Int} {p q : Nat} {u v : α} (ex : xa = p) (ew : wa = q) (hx : m p = some u) (hw : m q = some v) (rx : R p) (rw' : R q) :
    Accum m R W (mulAdd xa wa) (u * v) := by
  refine ⟨fun t => ?_, fun t => ?_⟩
  · rw [Gpu.mulAdd, Thr.run_bind, Thr.run_rdI ex hx, Res.ok_bind, Thr.run_bind, Thr.run_rdI ew hw, Res.ok_bind]
    rfl
  · subst ex ew
    exact (Within.rdI fun _ => by rwa [Int.toNat_natCast]).bind fun _ => (Within.rdI fun _ => by rwa [Int.toNat_natCast]).bind fun _ => Within.ret _

theorem slide_eq [AddCommMonoid α] (pad : Int) (nj np i : Nat) (f : Nat → Nat → α) : slide pad nj np i f =
    ∑ k ∈ range ((min (nj : Int) (np - i + pad) - max 0 (pad - i)).toNat), f (max 0 (pad - i) + k).toNat (i + (max 0 (pad - i) + k) - pad).toNat := by
  have inner : ∀ j : Nat, (∑ p ∈ range np, if (i : Int) + j = p + pad then f j p else 0) = if pad ≤ (i : Int) + j ∧ (i : Int) + j < np + pad then f j ((i : Int) + j - pad).toNat else 0 := fun j => by
    split
    · rename_i h
      rw [sum_eq_single ((i : Int) + j - pad).toNat]
      · rw [if_pos (by omega)]
      · intro p _ hp
        rw [if_neg (by omega)]
      · intro h'
        simp only [mem_range] at h'
        omega
    · rename_i h
      refine sum_eq_zero fun p hp => ?_
      rw [mem_range] at hp
      rw [if_neg (by omega)]
  rw [slide, sum_congr rfl fun j _ => inner j, ← sum_filter]
  refine sum_nbij' (fun j => ((j : Int) - max 0 (pad - i)).toNat) (fun k => (max 0 (pad - i) + (k : Int)).toNat) ?_ ?_ ?_ ?_ ?_
  · intro j hj
    simp only [mem_filter, mem_range] at hj ⊢
    omega
  · intro k hk
    simp only [mem_filter, mem_range] at hk ⊢
    omega
  · intro j hj
    simp only [mem_filter, mem_range] at hj
    omega
  · intro k hk
    simp only [mem_range] at hk
    omega
  · intro j hj
    simp only [mem_filter, mem_range] at hj
    have e : max 0 (pad - i) + ((((j : Int) - max 0 (pad - i)).toNat : Nat) : Int) = j := by omega
    rw [e, Int.toNat_natCast]

theorem Accum.slide [AddCommMonoid α] {m : Buf α} {R W : Nat → Prop} {pad lo hi : Int} {nj np i : Nat} {g : Int → α → Thr α α} {f : Nat → Nat → α} (hl : lo = max 0 (pad - i))
    (hh : hi = min (nj : Int) (np - i + pad)) (h : ∀ j p, j < nj → p < np → (i : Int) + j = p + pad → Accum m R W (g j) (f j p)) :
    Accum m R W (fun t => Thr.loopI lo hi t g) (slide pad nj np i f) := by
  subst hl hh
  rw [slide_eq]
  refine Accum.loop fun k hk => ?_
  have := h (max 0 (pad - i) + k).toNat (i + (max 0 (pad - i) + k) - pad).toNat (by omega) (by omega) (by omega)
  rwa [Int.toNat_of_nonneg (by omega)] at this

theorem body2_one [AddCommMonoid α] [Mul α] {m : Buf α} {R : Nat → Prop} {lo0 hi0 lo1 hi1 p0 p1 : Int} {na nj0 nj1 np0 np1 i0 i1 dst : Nat} {xa wa : Int → Int → Int → Int} {a : α}
    {c : Nat → Nat → Nat → Nat → Nat → α} (ha : m dst = some a) (hl0 : lo0 = max 0 (p0 - i0)) (hh0 : hi0 = min (nj0 : Int) (np0 - i0 + p0)) (hl1 : lo1 = max 0 (p1 - i1))
    (hh1 : hi1 = min (nj1 : Int) (np1 - i1 + p1))
    (h : ∀ j0 q0 j1 q1 b, j0 < nj0 → q0 < np0 → j1 < nj1 → q1 < np1 → b < na → (i0 : Int) + j0 = q0 + p0 → (i1 : Int) + j1 = q1 + p1 →
      Accum m R (· = dst) (mulAdd (xa j0 j1 b) (wa j0 j1 b)) (c j0 q0 j1 q1 b)) :
    One m (body2 lo0 hi0 lo1 hi1 na xa wa dst) dst (a + slide p0 nj0 np0 i0 fun j0 q0 => slide p1 nj1 np1 i1 fun j1 q1 => ∑ b ∈ range na, c j0 q0 j1 q1 b) R := by
  have h2 : ∀ j0 q0 j1 q1, j0 < nj0 → q0 < np0 → j1 < nj1 → q1 < np1 → (i0 : Int) + j0 = q0 + p0 → (i1 : Int) + j1 = q1 + p1 →
      Accum m R (· = dst) (fun t => Thr.loop na t fun b t => mulAdd (xa j0 j1 b) (wa j0 j1 b) t) (∑ b ∈ range na, c j0 q0 j1 q1 b) :=
    fun j0 q0 j1 q1 b1 b2 b3 b4 b5 b6 => Accum.loop fun b hb => h j0 q0 j1 q1 b b1 b2 b3 b4 hb b5 b6
  have h1 : ∀ j0 q0, j0 < nj0 → q0 < np0 → (i0 : Int) + j0 = q0 + p0 →
      Accum m R (· = dst) (fun t => Thr.loopI lo1 hi1 t fun j1 t => Thr.loop na t fun b t => mulAdd (xa j0 j1 b) (wa j0 j1 b) t) (slide p1 nj1 np1 i1 fun j1 q1 => ∑ b ∈ range na, c j0 q0 j1 q1 b) :=
    fun j0 q0 b1 b2 b3 => Accum.slide (g := fun j1 t => Thr.loop na t fun b t => mulAdd (xa j0 j1 b) (wa j0 j1 b) t) hl1 hh1 fun j1 q1 b4 b5 b6 => h2 j0 q0 j1 q1 b1 b2 b4 b5 b3 b6
  exact (Accum.slide (g := fun j0 t => Thr.loopI lo1 hi1 t fun j1 t => Thr.loop na t fun b t => mulAdd (xa j0 j1 b) (wa j0 j1 b) t) hl0 hh0 h1).one ha

theorem body3_one [AddCommMonoid α] [Mul α] {m : Buf α} {R : Nat → Prop} {lo0 hi0 lo1 hi1 lo2 hi2 p0 p1 p2 : Int} {na nj0 nj1 nj2 np0 np1 np2 i0 i1 i2 dst : Nat} {xa wa : Int → Int → Int → Int → Int}
    {a : α} {c : Nat → Nat → Nat → Nat → Nat → Nat → Nat → α} (ha : m dst = some a) (hl0 : lo0 = max 0 (p0 - i0)) (hh0 : hi0 = min (nj0 : Int) (np0 - i0 + p0)) (hl1 : lo1 = max 0 (p1 - i1))
    (hh1 : hi1 = min (nj1 : Int) (np1 - i1 + p1)) (hl2 : lo2 = max 0 (p2 - i2)) (hh2 : hi2 = min (nj2 : Int) (np2 - i2 + p2))
    (h : ∀ j0 q0 j1 q1 j2 q2 b, j0 < nj0 → q0 < np0 → j1 < nj1 → q1 < np1 → j2 < nj2 → q2 < np2 → b < na → (i0 : Int) + j0 = q0 + p0 → (i1 : Int) + j1 = q1 + p1 → (i2 : Int) + j2 = q2 + p2 →
      Accum m R (· = dst) (mulAdd (xa j0 j1 j2 b) (wa j0 j1 j2 b)) (c j0 q0 j1 q1 j2 q2 b)) :
    One m (body3 lo0 hi0 lo1 hi1 lo2 hi2 na xa wa dst) dst
      (a + slide p0 nj0 np0 i0 fun j0 q0 => slide p1 nj1 np1 i1 fun j1 q1 => slide p2 nj2 np2 i2 fun j2 q2 => ∑ b ∈ range na, c j0 q0 j1 q1 j2 q2 b) R := by
  have h2 : ∀ j0 q0 j1 q1, j0 < nj0 → q0 < np0 → j1 < nj1 → q1 < np1 → (i0 : Int) + j0 = q0 + p0 → (i1 : Int) + j1 = q1 + p1 →
      Accum m R (· = dst) (fun t => Thr.loopI lo2 hi2 t fun j2 t => Thr.loop na t fun b t => mulAdd (xa j0 j1 j2 b) (wa j0 j1 j2 b) t)
        (slide p2 nj2 np2 i2 fun j2 q2 => ∑ b ∈ range na, c j0 q0 j1 q1 j2 q2 b) :=
    fun j0 q0 j1 q1 b1 b2 b3 b4 b5 b6 => Accum.slide (g := fun j2 t => Thr.loop na t fun b t => mulAdd (xa j0 j1 j2 b) (wa j0 j1 j2 b) t) hl2 hh2 fun j2 q2 b7 b8 b9 =>
      Accum.loop fun b hb => h j0 q0 j1 q1 j2 q2 b b1 b2 b3 b4 b7 b8 hb b5 b6 b9
  have h1 : ∀ j0 q0, j0 < nj0 → q0 < np0 → (i0 : Int) + j0 = q0 + p0 →
      Accum m R (· = dst) (fun t => Thr.loopI lo1 hi1 t fun j1 t => Thr.loopI lo2 hi2 t fun j2 t => Thr.loop na t fun b t => mulAdd (xa j0 j1 j2 b) (wa j0 j1 j2 b) t)
        (slide p1 nj1 np1 i1 fun j1 q1 => slide p2 nj2 np2 i2 fun j2 q2 => ∑ b ∈ range na, c j0 q0 j1 q1 j2 q2 b) :=
    fun j0 q0 b1 b2 b3 => Accum.slide (g := fun j1 t => Thr.loopI lo2 hi2 t fun j2 t => Thr.loop na t fun b t => mulAdd (xa j0 j1 j2 b) (wa j0 j1 j2 b) t) hl1 hh1
      fun j1 q1 b4 b5 b6 => h2 j0 q0 j1 q1 b1 b2 b4 b5 b3 b6
  exact (Accum.slide (g := fun j0 t => Thr.loopI lo1 hi1 t fun j1 t => Thr.loopI lo2 hi2 t fun j2 t => Thr.loop na t fun b t => mulAdd (xa j0 j1 j2 b) (wa j0 j1 j2 b) t) hl0 hh0 h1).one ha

end Gpu

end Cnine
