import Verif.Model.SliceOps
import Verif.Spec.SliceOps
import Verif.Lemmas.Conv
import Verif.Lemmas.Spaces
import Mathlib.Algebra.BigOperators.Intervals

/-!
# Lemmas: operations on the first axis of a view

`X : Nat → List Nat → α` gives the entries of a view by the index of the first axis and the rest.
-/

namespace Cnine
namespace SliceOps

open Conv

variable {α : Type}

/-- Entries by first index and rest. -/
def unc (X : Nat → List Nat → α) (jx : List Nat) : α := X (jx.headD 0) jx.tail

/-- The entries after the first `k` operations; operation `k` acts on every column. -/
def after (op : Nat → (Nat → α) → Nat → α) (X : Nat → List Nat → α) : Nat → Nat → List Nat → α
  | 0 => X
  | k + 1 => fun a ix => op k (fun b => after op X k b ix) a

theorem rd_of {m : Buf α} {c : Int} {a : α} (h : m.cellAt c = some a) : rd m c = .ok a := by
  unfold Buf.cellAt at h
  unfold rd Buf.read
  by_cases h0 : 0 ≤ c
  · rw [if_pos h0] at h ⊢; rw [h]
  · rw [if_neg h0] at h; cases h

theorem becomes_trans {x : SV} {G G' : List Nat → α} {m m1 m2 : Buf α} (h : x.Becomes G m m1) (h' : x.Becomes G' m1 m2) :
    x.Becomes G' m m2 := ⟨h'.1, fun c hc => (h'.2 c hc).trans (h.2 c hc)⟩

theorem becomes_refl {x : SV} {G : List Nat → α} {m : Buf α} (h : x.Holds m G) : x.Becomes G m m := ⟨h, fun _ _ => rfl⟩

theorem becomes_congr {x : SV} {G G' : List Nat → α} {m m1 : Buf α} (h : x.Becomes G m m1)
    (e : ∀ ix, InRange ix x.dims → G ix = G' ix) : x.Becomes G' m m1 := ⟨fun ix hix => by rw [h.1 ix hix, e ix hix], h.2⟩

theorem holds_apart {x y : SV} (ha : y.Apart x) {G H : List Nat → α} {m m1 : Buf α} (h : x.Becomes G m m1) (hy : y.Holds m H) :
    y.Holds m1 H := by
  intro ix hix
  rw [← hy ix hix]
  unfold SV.val Buf.cellAt
  by_cases h0 : 0 ≤ y.cell ix
  · rw [if_pos h0, if_pos h0]
    exact h.2 _ fun jx hjx e => ha ix jx hix hjx (by omega)
  · rw [if_neg h0, if_neg h0]

theorem put_ok {x : SV} (hi : x.Inj) {F : List Nat → α} {m : Buf α} (h : x.Holds m F) {ix : List Nat} (hix : InRange ix x.dims) (v : α) :
    ∃ m', wr m (x.cell ix) v = .ok m' ∧ x.Becomes (Function.update F ix v) m m' := by
  refine ⟨_, wr_of (by rw [show m.cellAt (x.cell ix) = some (F ix) from h ix hix]; rfl) v, fun jx hjx => ?_, fun c hc => ?_⟩
  · have h0 : 0 ≤ x.cell jx := by
      have := h jx hjx
      unfold SV.val Buf.cellAt at this
      by_contra hn; rw [if_neg hn] at this; cases this
    unfold SV.val Buf.cellAt
    rw [if_pos h0]
    dsimp only
    by_cases e : jx = ix
    · subst e
      rw [Function.update_self, if_pos (by omega)]
    · rw [Function.update_of_ne e, if_neg (fun e' => e (hi jx ix hjx hix (by omega)))]
      have := h jx hjx
      unfold SV.val Buf.cellAt at this
      rwa [if_pos h0] at this
  · dsimp only
    rw [if_neg fun e => hc ix hix (Eq.symm e)]

/-- An operation on every column, one column after the other. -/
theorem columns_ok {x : SV} {n0 : Nat} {ns : List Nat} (hd : x.dims = n0 :: ns) (G : (Nat → α) → Nat → α)
    (body : List Nat → Buf α → Res (Buf α))
    (hb : ∀ ix, InRange ix ns → ∀ m X, x.Holds m (unc X) →
      ∃ m', body ix m = .ok m' ∧ x.Becomes (unc fun a jx => if jx = ix then G (fun b => X b ix) a else X a jx) m m')
    {m : Buf α} {X : Nat → List Nat → α} (h : x.Holds m (unc X)) :
    ∃ m', Res.forM (allIndices ns) m (fun m ix => body ix m) = .ok m' ∧ x.Becomes (unc fun a ix => G (fun b => X b ix) a) m m' := by
  have key : ∀ (L : List (List Nat)), L.Nodup → (∀ ix ∈ L, InRange ix ns) → ∀ (m : Buf α) (X : Nat → List Nat → α), x.Holds m (unc X) →
      ∃ m', Res.forM L m (fun m ix => body ix m) = .ok m' ∧
        x.Becomes (unc fun a ix => if ix ∈ L then G (fun b => X b ix) a else X a ix) m m' := by
    intro L
    induction L with
    | nil => intro _ _ m X h; exact ⟨m, rfl, by simpa using becomes_refl h⟩
    | cons ix L ih =>
      intro hn hL m X h
      rw [List.nodup_cons] at hn
      obtain ⟨m1, e1, b1⟩ := hb ix (hL ix (by simp)) m X h
      obtain ⟨m2, e2, b2⟩ := ih hn.2 (fun jx hjx => hL jx (by simp [hjx])) m1 _ b1.1
      refine ⟨m2, by rw [Res.forM_cons, e1, Res.ok_bind, e2], becomes_congr (becomes_trans b1 b2) fun jx _ => ?_⟩
      unfold unc
      dsimp only
      by_cases e : jx.tail = ix
      · rw [if_neg (by rw [e]; exact hn.1), if_pos e, if_pos (by rw [e]; simp), e]
      · by_cases e' : jx.tail ∈ L
        · rw [if_pos e', if_pos (by simp [e'])]
          simp only [e, if_false]
        · rw [if_neg e', if_neg e, if_neg (by simp [e, e'])]
  obtain ⟨m', e, b⟩ := key (allIndices ns) (allIndices_nodup ns) (fun ix hix => mem_allIndices.1 hix) m X h
  refine ⟨m', e, becomes_congr b fun jx hjx => ?_⟩
  rw [hd] at hjx
  unfold unc
  cases jx with
  | nil => exact absurd hjx (by simp [InRange])
  | cons a jx =>
    dsimp only [List.tail_cons]
    rw [if_pos (mem_allIndices.2 (inRange_cons.1 hjx).2)]

/-- One operation after another. -/
theorem stages_ok {x : SV} {n : Nat} (op : Nat → (Nat → α) → Nat → α) (body : Nat → Buf α → Res (Buf α)) {m : Buf α}
    {X : Nat → List Nat → α} (h : x.Holds m (unc X))
    (hb : ∀ k, k < n → ∀ m1 Y, x.Becomes (unc Y) m m1 →
      ∃ m2, body k m1 = .ok m2 ∧ x.Becomes (unc fun a ix => op k (fun b => Y b ix) a) m1 m2) :
    ∃ m', loop n m body = .ok m' ∧ x.Becomes (unc (after op X n)) m m' := by
  refine Space.loop_inv (fun k m1 => x.Becomes (unc (after op X k)) m m1) (becomes_refl h) n fun k m1 hk b => ?_
  obtain ⟨m2, e, b2⟩ := hb k hk m1 _ b
  exact ⟨m2, e, becomes_trans b b2⟩

theorem loop_one (n : Nat) (m : Buf α) (b : Nat → Buf α → Res (Buf α)) :
    loop n m b = Res.forM (allIndices [n]) m (fun m ix => b (ix.headD 0) m) := by
  unfold loop
  simp [allIndices, Cnine.forM_flatMap, Res.forM_cons, Res.forM_nil, res_bind_ok]

theorem loop_two (n k : Nat) (m : Buf α) (b : Nat → Nat → Buf α → Res (Buf α)) :
    loop n m (fun i m => loop k m (b i)) = Res.forM (allIndices [n, k]) m (fun m ix => b (ix.headD 0) (ix.tail.headD 0) m) := by
  rw [allIndices, Cnine.forM_flatMap]
  unfold loop
  refine forM_congr (fun i _ s => ?_) m
  rw [Cnine.forM_map]
  exact loop_one k s (b i)

theorem at3_eq (v : SV) (h : v.WF) {n k l : Nat} (hd : v.dims = [n, k, l]) (i j p : Nat) : at3 v i j p = .ok (v.cell [i, j, p]) := by
  obtain ⟨o, d, s⟩ := v
  simp only at hd
  subst hd
  match s, h with
  | [a, b, c], _ => simp [at3, Res.get, SV.cell, sdot, Int.mul_comm, Int.add_assoc]

open Finset

theorem holds_unc {x : SV} {n0 : Nat} {ns : List Nat} (hd : x.dims = n0 :: ns) {m : Buf α} {F : List Nat → α} (h : x.Holds m F) :
    x.Holds m (unc fun a ix => F (a :: ix)) := by
  intro jx hjx
  have h1 := h jx hjx
  rw [hd] at hjx
  cases jx with
  | nil => exact absurd hjx (by simp [InRange])
  | cons a jx => exact h1

theorem becomes_unc {x : SV} {n0 : Nat} {ns : List Nat} (hd : x.dims = n0 :: ns) {m m' : Buf α} {X : Nat → List Nat → α}
    {G : List Nat → α} (h : x.Becomes (unc X) m m') (e : ∀ a, a < n0 → ∀ ix, InRange ix ns → X a ix = G (a :: ix)) :
    x.Becomes G m m' := by
  refine becomes_congr h fun jx hjx => ?_
  rw [hd] at hjx
  cases jx with
  | nil => exact absurd hjx (by simp [InRange])
  | cons a jx => exact e a (inRange_cons.1 hjx).1 jx (inRange_cons.1 hjx).2

theorem Lists.read {v : SV} {n : Nat} {β : Type} {m : Buf β} {P : Nat → β} (h : Lists v n m P) {k : Nat} (hk : k < n) :
    rd m (v.cell [k]) = .ok (P k) := by
  refine rd_of ?_
  have := h.2.2 [k] (by rw [h.2.1]; exact inRange_cons.2 ⟨hk, by simp [InRange]⟩)
  simpa [SV.val] using this

theorem Pairs.read0 {v : SV} {n : Nat} {β : Type} {m : Buf β} {P Q : Nat → β} (h : Pairs v n m P Q) {k : Nat} (hk : k < n) :
    rd m (v.cell [k, 0]) = .ok (P k) := by
  refine rd_of ?_
  have := h.2.2 [k, 0] (by rw [h.2.1]; exact inRange_cons.2 ⟨hk, inRange_cons.2 ⟨by omega, by simp [InRange]⟩⟩)
  simpa [SV.val] using this

theorem Pairs.read1 {v : SV} {n : Nat} {β : Type} {m : Buf β} {P Q : Nat → β} (h : Pairs v n m P Q) {k : Nat} (hk : k < n) :
    rd m (v.cell [k, 1]) = .ok (Q k) := by
  refine rd_of ?_
  have := h.2.2 [k, 1] (by rw [h.2.1]; exact inRange_cons.2 ⟨hk, inRange_cons.2 ⟨by omega, by simp [InRange]⟩⟩)
  simpa [SV.val] using this

theorem Lists.keep {v x : SV} {n : Nat} {m m' : Buf α} {P : Nat → α} (h : Lists v n m P) (ha : v.Apart x) {G : List Nat → α}
    (hb : x.Becomes G m m') : Lists v n m' P := ⟨h.1, h.2.1, holds_apart ha hb h.2.2⟩

theorem Pairs.keep {v x : SV} {n : Nat} {m m' : Buf α} {P Q : Nat → α} (h : Pairs v n m P Q) (ha : v.Apart x) {G : List Nat → α}
    (hb : x.Becomes G m m') : Pairs v n m' P Q := ⟨h.1, h.2.1, holds_apart ha hb h.2.2⟩

/-! ### one cell, one pair of cells -/

theorem put_row {x : SV} (hi : x.Inj) {n0 : Nat} {ns : List Nat} (hd : x.dims = n0 :: ns) {p : Nat} (hp : p < n0) {ix : List Nat}
    (hix : InRange ix ns) {m : Buf α} {X : Nat → List Nat → α} (h : x.Holds m (unc X)) (v : α) :
    ∃ m', wr m (x.cell (p :: ix)) v = .ok m' ∧ x.Becomes (unc fun a jx => if jx = ix ∧ a = p then v else X a jx) m m' := by
  obtain ⟨m', e, b⟩ := put_ok hi h (ix := p :: ix) (by rw [hd]; exact inRange_cons.2 ⟨hp, hix⟩) v
  refine ⟨m', e, becomes_congr b fun jx hjx => ?_⟩
  rw [hd] at hjx
  cases jx with
  | nil => exact absurd hjx (by simp [InRange])
  | cons a jx =>
    by_cases e : jx = ix ∧ a = p
    · obtain ⟨rfl, rfl⟩ := e
      simp [unc]
    · rw [Function.update_of_ne (by rintro ⟨⟩; exact e ⟨rfl, rfl⟩)]
      exact (if_neg e).symm

theorem get_row {x : SV} {n0 : Nat} {ns : List Nat} (hd : x.dims = n0 :: ns) {p : Nat} (hp : p < n0) {ix : List Nat}
    (hix : InRange ix ns) {m : Buf α} {X : Nat → List Nat → α} (h : x.Holds m (unc X)) : rd m (x.cell (p :: ix)) = .ok (X p ix) :=
  rd_of (h (p :: ix) (by rw [hd]; exact inRange_cons.2 ⟨hp, hix⟩))

/-- What scaling does to a column. -/
def scaleCol [Mul α] (p : Nat) (c : α) (col : Nat → α) (a : Nat) : α := if a = p then col a * c else col a

/-- What the operation does to a column: `u` and `v` are the new values of `p` and `q`; that of `q` is written last. -/
def pairCol (p q : Nat) (u v : α → α → α) (col : Nat → α) (a : Nat) : α :=
  if a = q then v (col p) (col q) else if a = p then u (col p) (col q) else col a

theorem scale_cell [Mul α] {x : SV} (hi : x.Inj) {n0 : Nat} {ns : List Nat} (hd : x.dims = n0 :: ns) {p : Nat} (hp : p < n0) (c : α)
    (ix : List Nat) (hix : InRange ix ns) (m : Buf α) (X : Nat → List Nat → α) (h : x.Holds m (unc X)) :
    ∃ m', (do let t ← rd m (x.cell (p :: ix)); wr m (x.cell (p :: ix)) (t * c)) = .ok m' ∧
      x.Becomes (unc fun a jx => if jx = ix then scaleCol p c (fun b => X b ix) a else X a jx) m m' := by
  obtain ⟨m', e, b⟩ := put_row hi hd hp hix h (X p ix * c)
  refine ⟨m', by rw [get_row hd hp hix h, Res.ok_bind]; exact e, becomes_unc hd b fun a _ jx _ => ?_⟩
  simp only [unc, scaleCol, List.headD_cons, List.tail_cons]
  by_cases e1 : jx = ix <;> by_cases e2 : a = p <;> simp [e1, e2]

theorem pair_cell {x : SV} (hi : x.Inj) {n0 : Nat} {ns : List Nat} (hd : x.dims = n0 :: ns) {p q : Nat} (hp : p < n0) (hq : q < n0)
    (u v : α → α → α) (ix : List Nat) (hix : InRange ix ns) (m : Buf α) (X : Nat → List Nat → α) (h : x.Holds m (unc X)) :
    ∃ m', (do
        let t0 ← rd m (x.cell (p :: ix))
        let t1 ← rd m (x.cell (q :: ix))
        let m ← wr m (x.cell (p :: ix)) (u t0 t1)
        wr m (x.cell (q :: ix)) (v t0 t1)) = .ok m' ∧
      x.Becomes (unc fun a jx => if jx = ix then pairCol p q u v (fun b => X b ix) a else X a jx) m m' := by
  obtain ⟨m1, e1, b1⟩ := put_row hi hd hp hix h (u (X p ix) (X q ix))
  obtain ⟨m2, e2, b2⟩ := put_row hi hd hq hix b1.1 (v (X p ix) (X q ix))
  refine ⟨m2, by rw [get_row hd hp hix h, Res.ok_bind, get_row hd hq hix h, Res.ok_bind, e1, Res.ok_bind, e2],
    becomes_unc hd (becomes_trans b1 b2) fun a _ jx _ => ?_⟩
  simp only [unc, pairCol, List.headD_cons, List.tail_cons]
  by_cases e1 : jx = ix <;> by_cases e2 : a = q <;> by_cases e3 : a = p <;> simp [e1, e2, e3]

/-! ### the four programs -/

theorem scale2_run [Mul α] {x ind cs : SV} {n0 n1 n : Nat} {mi : Buf Int} {m : Buf α} {F : List Nat → α} {P : Nat → Nat} {C : Nat → α}
    (hx : Data x [n0, n1] m F) (hi : Lists ind n mi fun k => (P k : Int)) (hc : Lists cs n m C) (ha : cs.Apart x)
    (hP : ∀ k, k < n → P k < n0) :
    ∃ m', scale2 x ind cs mi m = .ok m' ∧ x.Becomes (unc (after (fun k => scaleCol (P k) (C k)) (fun a ix => F (a :: ix)) n)) m m' := by
  obtain ⟨hw, hd, hj, hF⟩ := hx
  unfold scale2
  simp only [hi.2.1, hc.2.1, hd, Res.get, List.getElem?_cons_zero, List.getElem?_cons_succ, Res.ok_bind, Res.assrt_true, decide_true]
  refine stages_ok _ _ (holds_unc hd hF) fun k hk m1 Y b => ?_
  rw [ind.at1_eq hi.1 hi.2.1, Res.ok_bind, hi.read hk, Res.ok_bind, cs.at1_eq hc.1 hc.2.1, Res.ok_bind, (hc.keep ha b).read hk,
    Res.ok_bind, loop_one]
  refine columns_ok hd (scaleCol (P k) (C k)) (fun ix m => do
      let a ← x.at2 (P k) (ix.headD 0)
      let t ← rd m a
      wr m a (t * C k)) (fun ix hix m X h => ?_) b.1
  obtain ⟨i, rfl⟩ : ∃ i, ix = [i] := by
    match ix, hix with
    | [i], _ => exact ⟨i, rfl⟩
  rw [List.headD_cons, x.at2_eq hw hd, Res.ok_bind]
  exact scale_cell hj hd (hP k hk) (C k) [i] hix m X h

theorem scale3_run [Mul α] {x ind cs : SV} {n0 n1 n2 n : Nat} {mi : Buf Int} {m : Buf α} {F : List Nat → α} {P : Nat → Nat}
    {C : Nat → α} (hx : Data x [n0, n1, n2] m F) (hi : Lists ind n mi fun k => (P k : Int)) (hc : Lists cs n m C) (ha : cs.Apart x)
    (hP : ∀ k, k < n → P k < n0) :
    ∃ m', scale3 x ind cs mi m = .ok m' ∧ x.Becomes (unc (after (fun k => scaleCol (P k) (C k)) (fun a ix => F (a :: ix)) n)) m m' := by
  obtain ⟨hw, hd, hj, hF⟩ := hx
  unfold scale3
  simp only [hi.2.1, hc.2.1, hd, Res.get, List.getElem?_cons_zero, List.getElem?_cons_succ, Res.ok_bind, Res.assrt_true, decide_true]
  refine stages_ok _ _ (holds_unc hd hF) fun k hk m1 Y b => ?_
  rw [ind.at1_eq hi.1 hi.2.1, Res.ok_bind, hi.read hk, Res.ok_bind, cs.at1_eq hc.1 hc.2.1, Res.ok_bind, (hc.keep ha b).read hk,
    Res.ok_bind, loop_two]
  refine columns_ok hd (scaleCol (P k) (C k)) (fun ix m => do
      let a ← at3 x (P k) (ix.headD 0) (ix.tail.headD 0)
      let t ← rd m a
      wr m a (t * C k)) (fun ix hix m X h => ?_) b.1
  obtain ⟨i, j, rfl⟩ : ∃ i j, ix = [i, j] := by
    match ix, hix with
    | [i, j], _ => exact ⟨i, j, rfl⟩
  rw [List.headD_cons, List.tail_cons, List.headD_cons, at3_eq x hw hd, Res.ok_bind]
  exact scale_cell hj hd (hP k hk) (C k) [i, j] hix m X h

theorem givens2_run [Add α] [Sub α] [Mul α] {x ind cs : SV} {n0 n1 n : Nat} {mi : Buf Int} {m : Buf α} {F : List Nat → α}
    {P Q : Nat → Nat} {C S : Nat → α} (hx : Data x [n0, n1] m F) (hi : Pairs ind n mi (fun k => (P k : Int)) (fun k => (Q k : Int)))
    (hc : Pairs cs n m C S) (ha : cs.Apart x) (hP : ∀ k, k < n → P k < n0 ∧ Q k < n0) :
    ∃ m', givens2 x ind cs mi m = .ok m' ∧
      x.Becomes (unc (after (fun k => pairCol (P k) (Q k) (fun t0 t1 => C k * t0 + S k * t1) (fun t0 t1 => C k * t1 - S k * t0))
        (fun a ix => F (a :: ix)) n)) m m' := by
  obtain ⟨hw, hd, hj, hF⟩ := hx
  unfold givens2
  simp only [hi.2.1, hc.2.1, hd, Res.get, List.getElem?_cons_zero, List.getElem?_cons_succ, Res.ok_bind, Res.assrt_true, decide_true]
  refine stages_ok _ _ (holds_unc hd hF) fun k hk m1 Y b => ?_
  have hc' := hc.keep ha b
  have a0 := ind.at2_eq hi.1 hi.2.1 k 0
  have a1 := ind.at2_eq hi.1 hi.2.1 k 1
  have b0 := cs.at2_eq hc.1 hc.2.1 k 0
  have b1 := cs.at2_eq hc.1 hc.2.1 k 1
  simp only [Nat.cast_zero, Nat.cast_one] at a0 a1 b0 b1
  rw [a0, Res.ok_bind, hi.read0 hk, Res.ok_bind, a1, Res.ok_bind, hi.read1 hk, Res.ok_bind, b0, Res.ok_bind, hc'.read0 hk, Res.ok_bind,
    b1, Res.ok_bind, hc'.read1 hk, Res.ok_bind, loop_one]
  refine columns_ok hd _ (fun ix m => do
      let a ← x.at2 (P k) (ix.headD 0)
      let t0 ← rd m a
      let b ← x.at2 (Q k) (ix.headD 0)
      let t1 ← rd m b
      let m ← wr m a (C k * t0 + S k * t1)
      wr m b (C k * t1 - S k * t0)) (fun ix hix m X h => ?_) b.1
  obtain ⟨i, rfl⟩ : ∃ i, ix = [i] := by
    match ix, hix with
    | [i], _ => exact ⟨i, rfl⟩
  simp only [List.headD_cons, x.at2_eq hw hd, Res.ok_bind]
  exact pair_cell hj hd (hP k hk).1 (hP k hk).2 _ _ [i] hix m X h

theorem givens3_run [Add α] [Sub α] [Neg α] [Mul α] {x ind cs : SV} {n0 n1 n2 n : Nat} {mi : Buf Int} {m : Buf α} {F : List Nat → α}
    {P Q : Nat → Nat} {C S : Nat → α} (hx : Data x [n0, n1, n2] m F)
    (hi : Pairs ind n mi (fun k => (P k : Int)) (fun k => (Q k : Int)))
    (hc : Pairs cs n m C S) (ha : cs.Apart x) (hP : ∀ k, k < n → P k < n0 ∧ Q k < n0) :
    ∃ m', givens3 x ind cs mi m = .ok m' ∧
      x.Becomes (unc (after (fun k => pairCol (P k) (Q k) (fun t0 t1 => C k * t0 + S k * t1) (fun t0 t1 => -(C k * t1 - S k * t0)))
        (fun a ix => F (a :: ix)) n)) m m' := by
  obtain ⟨hw, hd, hj, hF⟩ := hx
  unfold givens3
  simp only [hi.2.1, hc.2.1, hd, Res.get, List.getElem?_cons_zero, List.getElem?_cons_succ, Res.ok_bind, Res.assrt_true, decide_true]
  refine stages_ok _ _ (holds_unc hd hF) fun k hk m1 Y b => ?_
  have hc' := hc.keep ha b
  have a0 := ind.at2_eq hi.1 hi.2.1 k 0
  have a1 := ind.at2_eq hi.1 hi.2.1 k 1
  have b0 := cs.at2_eq hc.1 hc.2.1 k 0
  have b1 := cs.at2_eq hc.1 hc.2.1 k 1
  simp only [Nat.cast_zero, Nat.cast_one] at a0 a1 b0 b1
  rw [a0, Res.ok_bind, hi.read0 hk, Res.ok_bind, a1, Res.ok_bind, hi.read1 hk, Res.ok_bind, b0, Res.ok_bind, hc'.read0 hk, Res.ok_bind,
    b1, Res.ok_bind, hc'.read1 hk, Res.ok_bind, loop_two]
  refine columns_ok hd _ (fun ix m => do
      let a ← at3 x (P k) (ix.headD 0) (ix.tail.headD 0)
      let t0 ← rd m a
      let b ← at3 x (Q k) (ix.headD 0) (ix.tail.headD 0)
      let t1 ← rd m b
      let m ← wr m a (C k * t0 + S k * t1)
      wr m b (-(C k * t1 - S k * t0))) (fun ix hix m X h => ?_) b.1
  obtain ⟨i, j, rfl⟩ : ∃ i j, ix = [i, j] := by
    match ix, hix with
    | [i, j], _ => exact ⟨i, j, rfl⟩
  simp only [List.headD_cons, List.tail_cons, at3_eq x hw hd, Res.ok_bind]
  exact pair_cell hj hd (hP k hk).1 (hP k hk).2 _ _ [i, j] hix m X h

/-! ### what the operations on columns do -/

theorem after_scale [CommMonoid α] (P : Nat → Nat) (C : Nat → α) (X : Nat → List Nat → α) (a : Nat) (ix : List Nat) : ∀ n,
    after (fun k => scaleCol (P k) (C k)) X n a ix = X a ix * ∏ k ∈ range n with P k = a, C k := by
  intro n
  induction n with
  | zero => simp [after]
  | succ n ih =>
    rw [prod_filter] at ih ⊢
    rw [prod_range_succ, ← mul_assoc, ← ih]
    show scaleCol (P n) (C n) (fun b => after _ X n b ix) a = _
    unfold scaleCol
    by_cases e : P n = a
    · rw [if_pos e.symm, if_pos e]
    · rw [if_neg (Ne.symm e), if_neg e, mul_one]

theorem two_sum [CommRing α] {n p q : Nat} (hp : p < n) (hq : q < n) (hn : p ≠ q) (c s : α) (col : Nat → α) :
    ∑ b ∈ range n, (if b = p then c else if b = q then s else 0) * col b = c * col p + s * col q := by
  rw [show c * col p + s * col q = ∑ b ∈ range n, ((if b = p then c * col b else 0) + if b = q then s * col b else 0) by
    rw [sum_add_distrib, sum_ite_eq' (range n) p, sum_ite_eq' (range n) q, if_pos (mem_range.2 hp), if_pos (mem_range.2 hq)]]
  refine sum_congr rfl fun b _ => ?_
  by_cases e1 : b = p
  · subst e1; simp [hn]
  · by_cases e2 : b = q
    · subst e2; simp [e1]
    · simp [e1, e2]

theorem one_sum [CommRing α] {n a : Nat} (ha : a < n) (col : Nat → α) : ∑ b ∈ range n, (if a = b then 1 else 0) * col b = col a := by
  simp [ha]

theorem giv_col [CommRing α] {n p q : Nat} (hp : p < n) (hq : q < n) (hn : p ≠ q) (c s : α) (col : Nat → α) {a : Nat} (ha : a < n) :
    pairCol p q (fun t0 t1 => c * t0 + s * t1) (fun t0 t1 => c * t1 - s * t0) col a = ∑ b ∈ range n, giv p q c s a b * col b := by
  unfold pairCol giv
  by_cases e1 : a = p
  · subst e1
    simp only [if_true, if_neg hn]
    rw [two_sum hp hq hn]
  · by_cases e2 : a = q
    · subst e2
      simp only [if_true, if_neg e1]
      rw [two_sum hq hp hn.symm]; ring
    · simp only [if_neg e1, if_neg e2]
      rw [one_sum ha]

theorem mirror_col [CommRing α] {n p q : Nat} (hp : p < n) (hq : q < n) (hn : p ≠ q) (c s : α) (col : Nat → α) {a : Nat} (ha : a < n) :
    pairCol p q (fun t0 t1 => c * t0 + s * t1) (fun t0 t1 => -(c * t1 - s * t0)) col a = ∑ b ∈ range n, mirror p q c s a b * col b := by
  unfold pairCol mirror
  by_cases e1 : a = p
  · subst e1
    simp only [if_true, if_neg hn]
    rw [two_sum hp hq hn]
  · by_cases e2 : a = q
    · subst e2
      simp only [if_true, if_neg e1]
      rw [two_sum hq hp hn.symm]; ring
    · simp only [if_neg e1, if_neg e2]
      rw [one_sum ha]

theorem after_applied [CommRing α] {n0 n : Nat} {op : Nat → (Nat → α) → Nat → α} {M : Nat → Nat → Nat → α} {F : List Nat → α}
    (h : ∀ k, k < n → ∀ col a, a < n0 → op k col a = ∑ b ∈ range n0, M k a b * col b) (ix : List Nat) :
    ∀ k, k ≤ n → ∀ a, a < n0 → after op (fun a ix => F (a :: ix)) k a ix = applied n0 M F k (a :: ix) := by
  intro k
  induction k with
  | zero => intro _ a _; rfl
  | succ k ih =>
    intro hk a ha
    show op k _ a = ∑ b ∈ range n0, M k a b * applied n0 M F k (b :: ix)
    rw [h k (by omega) _ a ha]
    exact sum_congr rfl fun b hb => by rw [ih (by omega) b (mem_range.1 hb)]

/-- A pair of new values that keeps inner products. -/
theorem pair_inner [CommRing α] {n p q : Nat} (hp : p < n) (hq : q < n) (hn : p ≠ q) (u v : α → α → α)
    (h : ∀ a b a' b', u a b * u a' b' + v a b * v a' b' = a * a' + b * b') (col col' : Nat → α) :
    ∑ a ∈ range n, pairCol p q u v col a * pairCol p q u v col' a = ∑ a ∈ range n, col a * col' a := by
  have e : ∀ f : Nat → α, ∑ a ∈ range n, f a = f p + (f q + ∑ a ∈ ((range n).erase p).erase q, f a) := fun f => by
    rw [add_sum_erase _ f (mem_erase.2 ⟨hn.symm, mem_range.2 hq⟩), add_sum_erase _ f (mem_range.2 hp)]
  rw [e, e, ← add_assoc, ← add_assoc]
  congr 1
  · simp only [pairCol, if_neg hn, if_true]
    exact h _ _ _ _
  · refine sum_congr rfl fun a ha => ?_
    rw [mem_erase, mem_erase] at ha
    simp only [pairCol, if_neg ha.1, if_neg ha.2.1]

theorem after_inner [CommRing α] {n0 n : Nat} {op : Nat → (Nat → α) → Nat → α}
    (h : ∀ k, k < n → ∀ col col', ∑ a ∈ range n0, op k col a * op k col' a = ∑ a ∈ range n0, col a * col' a) (X : Nat → List Nat → α)
    (ix jx : List Nat) : ∀ k, k ≤ n → ∑ a ∈ range n0, after op X k a ix * after op X k a jx = ∑ a ∈ range n0, X a ix * X a jx := by
  intro k
  induction k with
  | zero => intro _; rfl
  | succ k ih => intro hk; exact (h k (by omega) _ _).trans (ih (by omega))

theorem pair_undo {p q : Nat} (hn : p ≠ q) {u v u' v' : α → α → α} (h : ∀ a b, u' (u a b) (v a b) = a) (h' : ∀ a b, v' (u a b) (v a b) = b)
    (col : Nat → α) : pairCol p q u' v' (pairCol p q u v col) = col := by
  funext a
  by_cases e1 : a = q
  · subst e1; simp [pairCol, hn, h']
  · by_cases e2 : a = p
    · subst e2; simp [pairCol, hn, h]
    · simp [pairCol, e1, e2]

theorem after_undo {n : Nat} {op op' : Nat → (Nat → α) → Nat → α} (h : ∀ k, k < n → ∀ col, op' (n - 1 - k) (op k col) = col)
    (X : Nat → List Nat → α) : ∀ k, k ≤ n → after op' (after op X n) k = after op X (n - k) := by
  intro k
  induction k with
  | zero => intro _; rfl
  | succ k ih =>
    intro hk
    funext a ix
    show op' k (fun b => after op' (after op X n) k b ix) a = _
    rw [ih (by omega), show n - k = (n - (k + 1)) + 1 by omega]
    have := h (n - (k + 1)) (by omega) (fun b => after op X (n - (k + 1)) b ix)
    rw [show n - 1 - (n - (k + 1)) = k by omega] at this
    exact congrFun this a

theorem same_memory {x : SV} {F : List Nat → α} {m m' : Buf α} (h : x.Holds m F) (b : x.Becomes F m m') : m' = m := by
  funext c
  by_cases e : ∃ ix, InRange ix x.dims ∧ x.cell ix = c
  · obtain ⟨ix, h1, h2⟩ := e
    have a1 := h ix h1
    have a2 := b.1 ix h1
    unfold SV.val Buf.cellAt at a1 a2
    rw [h2, if_pos (by omega), Int.toNat_natCast] at a1 a2
    rw [a1, a2]
  · exact b.2 c fun ix h1 h2 => e ⟨ix, h1, h2⟩

end SliceOps
end Cnine
