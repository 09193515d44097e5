import Verif.Lemmas.GpuR
import Verif.Lemmas.RView
import Verif.Model.BsmGpu
import Mathlib.Algebra.Ring.Defs
import Mathlib.Algebra.Ring.Int.Defs

/-!
# Properties of block sparse matrices on the GPU

C556, C557.
-/

namespace Cnine

open Gpu Thr BsmGpu

variable {α : Type}

namespace BsmGpu

/-- The table of a matrix with one block. -/
theorem table_one (i j : Int) (t : Nat) (c : OMap Int (OMap Int Nat)) : gatherTable ⟨[(i, [(j, t)])], c⟩ = .ok [some 1, some 3, some 5, some i, some j] := rfl

theorem ptr_run (p : Int) (q : Nat) (h : p = q) (m : Buf α) : (ptr p : Thr α Nat).run m = .ok (m, q) := by
  rw [ptr, if_neg (by omega), h]
  rfl

theorem ptr_eq (p : Int) (q : Nat) (h : p = q) : (ptr p : Thr α Nat) = pure q := by
  rw [ptr, if_neg (by omega), h]
  rfl

/-- The thread of column `c`. -/
theorem kernel_one [Semiring α] (r y : RV2) (q t b i j : Nat) (hb : b = 0) (c : Nat) :
    (kernel r q 1 1 y 1 1 [some 1, some 3, some 5, some (i : Int), some (j : Int)] [t] 1 b 0 c : Thr α Unit) = (do
      let v ← rd (q + t)
      let w ← rd (y.cell j c)
      inc (r.cell i c) (0 + v * w)) := by
  subst hb
  have e1 : (ptr (y.arr + (j : Int) * ((1 : Nat) : Int) * y.s0 + (c : Nat) * y.s1 + ((0 : Nat) : Int) * y.s1) : Thr α Nat) = pure (y.cell j c) :=
    ptr_eq _ _ (by simp only [RV2.cell]; push_cast; ring)
  have e2 : (ptr (r.arr + ((i : Int) * ((1 : Nat) : Int) + ((0 : Nat) : Int)) * r.s0 + (c : Nat) * r.s1) : Thr α Nat) = pure (r.cell i c) :=
    ptr_eq _ _ (by simp only [RV2.cell]; push_cast; ring)
  have e3 : q + ((t + 0) * 1 + 0) * 1 + 0 * 1 = q + t := by omega
  have e : (kernel r q 1 1 y 1 1 [some 1, some 3, some 5, some (i : Int), some (j : Int)] [t] 1 0 0 c : Thr α Unit) = (do
      let v ← rd (q + ((t + 0) * 1 + 0) * 1 + 0 * 1)
      let p ← ptr (y.arr + (j : Int) * ((1 : Nat) : Int) * y.s0 + (c : Nat) * y.s1 + ((0 : Nat) : Int) * y.s1)
      let w ← rd p
      let p ← ptr (r.arr + ((i : Int) * ((1 : Nat) : Int) + ((0 : Nat) : Int)) * r.s0 + (c : Nat) * r.s1)
      inc p (0 + v * w)) := by
    have hassoc : ∀ {β γ δ : Type} (x : Thr α β) (f : β → Thr α γ) (g : γ → Thr α δ), (x >>= f) >>= g = x >>= fun b => f b >>= g := fun x f g => by
      show (x.bind f).bind g = x.bind fun b => (f b).bind g
      induction x with
      | ret b => rfl
      | read p k ih => simp only [Thr.bind, ih]
      | write p v k ih => simp only [Thr.bind, ih]
      | fail => rfl
    show ((do
      let v ← rd (q + ((t + 0) * 1 + 0) * 1 + 0 * 1)
      let p ← ptr (y.arr + (j : Int) * ((1 : Nat) : Int) * y.s0 + (c : Nat) * y.s1 + ((0 : Nat) : Int) * y.s1)
      let w ← rd p
      pure (0 + v * w) : Thr α α) >>= fun t => ptr (r.arr + ((i : Int) * ((1 : Nat) : Int) + ((0 : Nat) : Int)) * r.s0 + (c : Nat) * r.s1) >>= fun p => inc p t) = _
    simp only [hassoc]
    rfl
  rw [e, e3]
  simp only [e1, e2]
  rfl

end BsmGpu

/-! ## C556: the product with a matrix on the GPU -/

/-- What `apply_to` should do: row `a` of `r` gets the sum over the columns of the dense matrix.  Proved for a matrix with a single block of one row and one column, whose entry is
`E` and whose position is (`i`,`j`), and fewer than 1024 columns.  Missing: every other matrix, for which it is wrong (`C556_rows_fails`, `C556_blocks_fails`, `C556_sizes_fails`, `C556_wide_fails`). -/
theorem C556_apply_partial [Semiring α] (x : BSM) (r y : RV2) (i j t : Nat) (c : OMap Int (OMap Int Nat)) (hx : x.offsets = ⟨[((i : Int), [((j : Int), t)])], c⟩)
    (hbn : x.blockn = 1) (hbm : x.blockm = 1) (hy : y.n0 = x.mblocks) (hr : r.n0 = x.nblocks) (hn : y.n1 = r.n1) (hlt : r.n1 < 1024) (m : Buf α) (E : α) (R Y : Nat → α)
    (hE : m (x.mx + t) = some E) (hR : ∀ k, k < r.n1 → m (r.cell i k) = some (R k)) (hY : ∀ k, k < r.n1 → m (y.cell j k) = some (Y k))
    (inj : ∀ k k', k < r.n1 → k' < r.n1 → r.cell i k = r.cell i k' → k = k') (h1 : ∀ k, k < r.n1 → r.cell i k ≠ x.mx + t)
    (h2 : ∀ k k', k < r.n1 → k' < r.n1 → r.cell i k ≠ y.cell j k') :
    ∃ ls, BsmGpu.applyTo x r y = .ok ls ∧ Ends ls m fun m' => Upd m m' (· < r.n1) (fun k => r.cell i k) fun k => R k + E * Y k := by
  obtain ⟨nb, mb, bn, bm, q, off⟩ := x
  dsimp only at hx hbn hbm hy hr hE h1
  subst hbn hbm hx
  refine ⟨[⟨⟨1, 1, 1⟩, ⟨1, y.n1, 1⟩, fun b d => kernel r q 1 1 y 1 1 [some 1, some 3, some 5, some (i : Int), some (j : Int)] [t] 1 b.x d.x d.y⟩], ?_, ?_⟩
  · simp only [BsmGpu.applyTo]
    rw [decide_eq_true (show y.n0 = mb * 1 by omega), decide_eq_true (show r.n0 = nb * 1 by omega), decide_eq_true hn, Res.assrt_true, Res.ok_bind, Res.ok_bind, Res.ok_bind, applyCu]
    rw [if_pos (by dsimp only; omega), table_one]
    rfl
  · refine Ends.covers (S := fun k p => p = q + t ∨ p = y.cell j k) (idx := fun z => z.2.y)
      (covers_box _ _ _ _ _ (fun k => (⟨0, 0, 0⟩, ⟨0, k, 0⟩)) ?_ ?_ ?_ ?_ ?_ ?_ ?_ ?_) ?_ ?_ ?_
    · intro k hk; dsimp only at *; omega
    · intro k hk; rfl
    · intro bx by' bz tx ty tz _ _ _ _ _ _; dsimp only at *; omega
    · dsimp only; omega
    · dsimp only; omega
    · dsimp only; omega
    · dsimp only; omega
    · dsimp only; omega
    · rintro ⟨⟨bx, by', bz⟩, ⟨tx, ty, tz⟩⟩ hq
      obtain ⟨⟨a1, a2, a3⟩, a4, a5, a6⟩ := mem_ids'.1 hq
      dsimp only at *
      obtain rfl : tx = 0 := by omega
      have hk : ty < r.n1 := by omega
      rw [kernel_one r y q t bx i j (by omega) ty]
      refine ⟨Within.bind (Within.rd (.inl (.inl rfl))) fun v => Within.bind (Within.rd (.inl (.inr rfl))) fun w => Within.inc rfl, ?_⟩
      rw [Thr.run_bind, Thr.run_rd hE, Res.ok_bind, Thr.run_bind, Thr.run_rd (hY _ hk), Res.ok_bind, zero_add]
      exact Thr.run_inc _ (hR _ hk)
    · exact fun k k' h h' e => inj k k' h h' e
    · rintro k k' h h' _ (e | e)
      · exact h1 k h e
      · exact h2 k k' h h' e

/-- A matrix of 3 by 4 blocks of one entry, one of which is there, at (2,1) (cell 20); `r` at cell 0, `y` at cell 10, both with two columns. -/
example : (∀ k k', k < 2 → k' < 2 → (⟨0, 3, 2, 2, 1⟩ : RV2).cell 2 k = (⟨0, 3, 2, 2, 1⟩ : RV2).cell 2 k' → k = k') ∧ (∀ k, k < 2 → (⟨0, 3, 2, 2, 1⟩ : RV2).cell 2 k ≠ 20 + 0) ∧
    (∀ k k', k < 2 → k' < 2 → (⟨0, 3, 2, 2, 1⟩ : RV2).cell 2 k ≠ (⟨10, 4, 2, 2, 1⟩ : RV2).cell 1 k') ∧
    (⟨3, 4, 1, 1, 20, (BSM.offsetsOf [(2, 1)]).1⟩ : BSM).offsets = ⟨[((2 : Nat), [(((1 : Nat) : Int), 0)])], [(1, [(2, 0)])]⟩ := by
  refine ⟨fun k k' h h' e => ?_, fun k h => ?_, fun k k' h h' => ?_, rfl⟩ <;> simp only [RV2.cell] at * <;> omega

/-- A matrix with two rows of blocks (the identity of size 2): the kernel expects the start and the length of every row in the table, which holds the number of rows and the starts;
it reads beyond the end. -/
theorem C556_rows_fails : ∃ ls, BsmGpu.applyTo ⟨2, 2, 1, 1, 0, (BSM.offsetsOf [(0, 0), (1, 1)]).1⟩ ⟨2, 2, 1, 1, 1⟩ ⟨4, 2, 1, 1, 1⟩ = .ok ls ∧
    Out ls (fun p => [some 1, some 1, some 0, some 0, some 5, some (7 : Int)].getD p none) .ub :=
  ⟨_, rfl, Out.bad rfl [0, 0, 0, 0, 0] rfl⟩

/-- One row of two blocks: the kernel stops after as many blocks as there are rows. The product of (2 3) with (5 7) is 31, it is 10 here. -/
theorem C556_blocks_fails : ∃ ls, BsmGpu.applyTo ⟨1, 2, 1, 1, 0, (BSM.offsetsOf [(0, 0), (0, 1)]).1⟩ ⟨4, 1, 1, 1, 1⟩ ⟨2, 2, 1, 1, 1⟩ = .ok ls ∧
    Ends ls (fun p => [some 2, some 3, some 5, some 7, some (0 : Int)].getD p none) fun m' => m' 4 = some 10 := by
  refine ⟨_, rfl, (Ends.own rfl (fun _ _ => True) (fun _ p => p = 4) (fun _ p => if p = 4 then some 10 else [some 2, some 3, some 5, some 7, some (0 : Int)].getD p none) ?_ ?_ ?_).imp fun m' h => ?_⟩
  · rintro ⟨⟨bx, by', bz⟩, ⟨tx, ty, tz⟩⟩ hq
    obtain ⟨⟨a1, a2, a3⟩, a4, a5, a6⟩ := mem_ids'.1 hq
    obtain ⟨rfl, rfl, rfl⟩ : bx = 0 ∧ tx = 0 ∧ ty = 0 := ⟨Nat.lt_one_iff.1 a1, Nat.lt_one_iff.1 a4, Nat.lt_one_iff.1 a5⟩
    exact ⟨.inl trivial, fun _ => ⟨.inl trivial, fun _ => ⟨.inr rfl, fun _ => ⟨rfl, trivial⟩⟩⟩⟩
  · rintro ⟨⟨bx, by', bz⟩, ⟨tx, ty, tz⟩⟩ hq ⟨⟨bx', by'', bz'⟩, ⟨tx', ty', tz'⟩⟩ hq' hne
    obtain ⟨⟨a1, a2, a3⟩, a4, a5, a6⟩ := mem_ids'.1 hq
    obtain ⟨⟨b1, b2, b3⟩, b4, b5, b6⟩ := mem_ids'.1 hq'
    refine absurd ?_ hne
    rw [Nat.lt_one_iff.1 a1, Nat.lt_one_iff.1 a2, Nat.lt_one_iff.1 a3, Nat.lt_one_iff.1 a4, Nat.lt_one_iff.1 a5, Nat.lt_one_iff.1 a6, Nat.lt_one_iff.1 b1, Nat.lt_one_iff.1 b2,
      Nat.lt_one_iff.1 b3, Nat.lt_one_iff.1 b4, Nat.lt_one_iff.1 b5, Nat.lt_one_iff.1 b6]
  · rintro ⟨⟨bx, by', bz⟩, ⟨tx, ty, tz⟩⟩ hq
    obtain ⟨⟨a1, a2, a3⟩, a4, a5, a6⟩ := mem_ids'.1 hq
    obtain ⟨rfl, rfl, rfl⟩ : bx = 0 ∧ tx = 0 ∧ ty = 0 := ⟨Nat.lt_one_iff.1 a1, Nat.lt_one_iff.1 a4, Nat.lt_one_iff.1 a5⟩
    rfl
  · exact h.1 (⟨0, 0, 0⟩, ⟨0, 0, 0⟩) (mem_ids'.2 (by decide)) 4 rfl

/-- A single block of one row and two columns: its entries are read two cells apart, as are those of `y`; beyond the end of the memory. -/
theorem C556_sizes_fails : ∃ ls, BsmGpu.applyTo ⟨1, 1, 1, 2, 3, (BSM.offsetsOf [(0, 0)]).1⟩ ⟨2, 1, 1, 1, 1⟩ ⟨0, 2, 1, 1, 1⟩ = .ok ls ∧
    Out ls (fun p => [some 5, some 7, some 0, some 2, some (3 : Int)].getD p none) .ub := by
  exact ⟨_, rfl, Out.bad rfl [0, 0, 0, 0, 0] rfl⟩

/-- From 1024 threads on nothing is launched, without a message. -/
theorem C556_wide_fails [Semiring α] (x : BSM) (r y : RV2) (hy : y.n0 = x.mblocks * x.blockm) (hr : r.n0 = x.nblocks * x.blockn) (hn : y.n1 = r.n1) (hw : 1024 ≤ x.blockn * y.n1) :
    BsmGpu.applyTo x r y = (.ok [] : Res (List (Launch α))) := by
  simp only [BsmGpu.applyTo]
  rw [decide_eq_true hy, decide_eq_true hr, decide_eq_true hn, Res.assrt_true, Res.ok_bind, Res.ok_bind, Res.ok_bind, applyCu, if_neg (by omega)]

/-! ## C557: the product with the transposed matrix on the GPU -/

/-- What `apply_transp_to` should do: row `b` of `r` gets the sum over the rows of the dense matrix.  Proved for a matrix with a single block of one row and one column on the diagonal.
Missing: every other matrix, for which it is wrong (`C557_transp_fails` and the cases of C556). -/
theorem C557_transp_partial [Semiring α] (x : BSM) (r y : RV2) (i t : Nat) (c : OMap Int (OMap Int Nat)) (hx : x.offsets = ⟨[((i : Int), [((i : Int), t)])], c⟩)
    (hbn : x.blockn = 1) (hbm : x.blockm = 1) (hy : y.n0 = x.nblocks) (hr : r.n0 = x.mblocks) (hn : y.n1 = r.n1) (hlt : r.n1 < 1024) (m : Buf α) (E : α) (R Y : Nat → α)
    (hE : m (x.mx + t) = some E) (hR : ∀ k, k < r.n1 → m (r.cell i k) = some (R k)) (hY : ∀ k, k < r.n1 → m (y.cell i k) = some (Y k))
    (inj : ∀ k k', k < r.n1 → k' < r.n1 → r.cell i k = r.cell i k' → k = k') (h1 : ∀ k, k < r.n1 → r.cell i k ≠ x.mx + t)
    (h2 : ∀ k k', k < r.n1 → k' < r.n1 → r.cell i k ≠ y.cell i k') :
    ∃ ls, BsmGpu.applyTranspTo x r y = .ok ls ∧ Ends ls m fun m' => Upd m m' (· < r.n1) (fun k => r.cell i k) fun k => R k + E * Y k := by
  obtain ⟨nb, mb, bn, bm, q, off⟩ := x
  dsimp only at hbn hbm
  subst hbn hbm
  exact C556_apply_partial ⟨mb, nb, 1, 1, q, off⟩ r y i i t c hx rfl rfl hy hr hn hlt m E R Y hE hR hY inj h1 h2

example : (∀ k k', k < 2 → k' < 2 → (⟨0, 4, 2, 2, 1⟩ : RV2).cell 2 k ≠ (⟨10, 3, 2, 2, 1⟩ : RV2).cell 2 k') ∧
    (⟨3, 4, 1, 1, 20, (BSM.offsetsOf [(2, 2)]).1⟩ : BSM).offsets = ⟨[((2 : Nat), [(((2 : Nat) : Int), 0)])], [(2, [(2, 0)])]⟩ := by
  refine ⟨fun k k' h h' => ?_, rfl⟩; simp only [RV2.cell] at *; omega

/-- A single entry 2 in row 0 and column 1: the code puts twice entry 1 of `y` into entry 0 of `r`, the product of the transposed matrix has twice entry 0 of `y` (10) in entry 1. -/
theorem C557_transp_fails : ∃ ls, BsmGpu.applyTranspTo ⟨2, 2, 1, 1, 0, (BSM.offsetsOf [(0, 1)]).1⟩ ⟨1, 2, 1, 1, 1⟩ ⟨3, 2, 1, 1, 1⟩ = .ok ls ∧
    Ends ls (fun p => [some 2, some 0, some 0, some 5, some (7 : Int)].getD p none) fun m' => m' 1 = some 14 ∧ m' 2 = some 0 := by
  refine ⟨_, rfl, (Ends.own rfl (fun _ _ => True) (fun _ p => p = 1) (fun _ p => if p = 1 then some 14 else [some 2, some 0, some 0, some 5, some (7 : Int)].getD p none) ?_ ?_ ?_).imp fun m' h => ?_⟩
  · rintro ⟨⟨bx, by', bz⟩, ⟨tx, ty, tz⟩⟩ hq
    obtain ⟨⟨a1, a2, a3⟩, a4, a5, a6⟩ := mem_ids'.1 hq
    obtain ⟨rfl, rfl, rfl⟩ : bx = 0 ∧ tx = 0 ∧ ty = 0 := ⟨Nat.lt_one_iff.1 a1, Nat.lt_one_iff.1 a4, Nat.lt_one_iff.1 a5⟩
    exact ⟨.inl trivial, fun _ => ⟨.inl trivial, fun _ => ⟨.inr rfl, fun _ => ⟨rfl, trivial⟩⟩⟩⟩
  · rintro ⟨⟨bx, by', bz⟩, ⟨tx, ty, tz⟩⟩ hq ⟨⟨bx', by'', bz'⟩, ⟨tx', ty', tz'⟩⟩ hq' hne
    obtain ⟨⟨a1, a2, a3⟩, a4, a5, a6⟩ := mem_ids'.1 hq
    obtain ⟨⟨b1, b2, b3⟩, b4, b5, b6⟩ := mem_ids'.1 hq'
    refine absurd ?_ hne
    rw [Nat.lt_one_iff.1 a1, Nat.lt_one_iff.1 a2, Nat.lt_one_iff.1 a3, Nat.lt_one_iff.1 a4, Nat.lt_one_iff.1 a5, Nat.lt_one_iff.1 a6, Nat.lt_one_iff.1 b1, Nat.lt_one_iff.1 b2,
      Nat.lt_one_iff.1 b3, Nat.lt_one_iff.1 b4, Nat.lt_one_iff.1 b5, Nat.lt_one_iff.1 b6]
  · rintro ⟨⟨bx, by', bz⟩, ⟨tx, ty, tz⟩⟩ hq
    obtain ⟨⟨a1, a2, a3⟩, a4, a5, a6⟩ := mem_ids'.1 hq
    obtain ⟨rfl, rfl, rfl⟩ : bx = 0 ∧ tx = 0 ∧ ty = 0 := ⟨Nat.lt_one_iff.1 a1, Nat.lt_one_iff.1 a4, Nat.lt_one_iff.1 a5⟩
    rfl
  · refine ⟨h.1 (⟨0, 0, 0⟩, ⟨0, 0, 0⟩) (mem_ids'.2 (by decide)) 1 rfl, ?_⟩
    rw [h.2 2 fun _ _ => by decide]
    rfl

end Cnine
