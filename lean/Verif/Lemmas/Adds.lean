import Verif.Model.Conv
import Verif.Lemmas.View
import Mathlib.Algebra.BigOperators.Group.List.Basic
import Mathlib.Algebra.BigOperators.Ring.List
import Mathlib.Tactic.Ring

/-!
# Programs that only add to memory

`Acc P m0 prog f`: from every memory that agrees with `m0` on the cells `P` and has the same cells allocated, `prog` returns
normally, adds `f c` to every cell `c`, and `f` vanishes on `P`.
-/

namespace Cnine

open Conv

variable {α : Type}

/-- The contents of the cell at an integer address. -/
def Buf.cellAt (m : Buf α) (c : Int) : Option α := if 0 ≤ c then m c.toNat else none

/-- Sum of products of strides and indices. -/
def sdot : List Int → List Nat → Int
  | s :: ss, i :: is => s * i + sdot ss is
  | _, _ => 0

namespace SV

/-- The address of an entry. -/
def cell (v : SV) (ix : List Nat) : Int := v.off + sdot v.strides ix

/-- The value of an entry. -/
def val (m : Buf α) (v : SV) (ix : List Nat) : Option α := m.cellAt (v.cell ix)

/-- One stride per axis. -/
def WF (v : SV) : Prop := v.strides.length = v.dims.length

/-- The entries of `v` are given by `f`. -/
def Holds (v : SV) (m : Buf α) (f : List Nat → α) : Prop := ∀ ix, InRange ix v.dims → v.val m ix = some (f ix)

/-- All entries of `v` lie in allocated memory. -/
def Has (v : SV) (m : Buf α) : Prop := ∀ ix, InRange ix v.dims → (v.val m ix).isSome

/-- Different entries have different addresses. -/
def Inj (v : SV) : Prop := ∀ ix jx, InRange ix v.dims → InRange jx v.dims → v.cell ix = v.cell jx → ix = jx

/-- No entry of `v` lies where an entry of `w` lies. -/
def Apart (v w : SV) : Prop := ∀ ix jx, InRange ix v.dims → InRange jx w.dims → v.cell ix ≠ w.cell jx

/-- Entry `ix` of `v` has gained `G ix`; nothing else has changed. -/
def Gains [Add α] (v : SV) (G : List Nat → α) (m m' : Buf α) : Prop :=
  (∀ ix, InRange ix v.dims → ∀ a, v.val m ix = some a → v.val m' ix = some (a + G ix)) ∧
    ∀ c : Nat, (∀ ix, InRange ix v.dims → v.cell ix ≠ c) → m' c = m c

/-- Entry `ix` of `v` is now `G ix`; nothing else has changed. -/
def Becomes (v : SV) (G : List Nat → α) (m m' : Buf α) : Prop :=
  (∀ ix, InRange ix v.dims → v.val m' ix = some (G ix)) ∧
    ∀ c : Nat, (∀ ix, InRange ix v.dims → v.cell ix ≠ c) → m' c = m c

/-- Fix the first index. -/
def sub (v : SV) (i : Int) : SV := ⟨v.off + v.strides.headD 0 * i, v.dims.tail, v.strides.tail⟩

theorem sub_cell (v : SV) (h : v.strides ≠ []) (i : Nat) (ix : List Nat) : (v.sub i).cell ix = v.cell (i :: ix) := by
  obtain ⟨o, d, s⟩ := v
  cases s with
  | nil => exact absurd rfl h
  | cons a s => simp [sub, cell, sdot, Int.add_assoc]

theorem WF.strides_ne {v : SV} (h : v.WF) {n : Nat} {ds : List Nat} (hd : v.dims = n :: ds) : v.strides ≠ [] := by
  intro e
  have : v.strides.length = v.dims.length := h
  rw [e, hd] at this
  simp at this

theorem WF.sub {v : SV} (h : v.WF) (i : Int) : (v.sub i).WF := by
  have : v.strides.length = v.dims.length := h
  simp [WF, SV.sub, this]

theorem slice_eq (v : SV) (h : v.WF) {n : Nat} {ds : List Nat} (hd : v.dims = n :: ds) (i : Int) :
    v.slice 0 i = .ok (v.sub i) := by
  obtain ⟨o, d, s⟩ := v
  cases s with
  | nil => exact absurd rfl (h.strides_ne hd)
  | cons a s =>
    simp only at hd
    subst hd
    simp [slice, Res.get, gvRemove, sub]

theorem at1_eq (v : SV) (h : v.WF) {n : Nat} (hd : v.dims = [n]) (i : Nat) : v.at1 i = .ok (v.cell [i]) := by
  obtain ⟨o, d, s⟩ := v
  simp only at hd
  subst hd
  match s, h with
  | [a], _ => simp [at1, Res.get, cell, sdot, Int.mul_comm]

theorem at2_eq (v : SV) (h : v.WF) {n k : Nat} (hd : v.dims = [n, k]) (i j : Nat) : v.at2 i j = .ok (v.cell [i, j]) := by
  obtain ⟨o, d, s⟩ := v
  simp only at hd
  subst hd
  match s, h with
  | [a, b], _ => simp [at2, Res.get, cell, sdot, Int.mul_comm]

end SV

/-- `m'` is `m` with `f c` added to every cell `c`. -/
def Adds [Add α] (m m' : Buf α) (f : Nat → α) : Prop := ∀ c, m' c = (m c).map (· + f c)

/-- `m` has the same cells as `m0` and agrees with it on `P`. -/
def Keeps (P : Nat → Prop) (m0 m : Buf α) : Prop := (∀ c, (m c).isSome = (m0 c).isSome) ∧ ∀ c, P c → m c = m0 c

theorem Keeps.refl (P : Nat → Prop) (m : Buf α) : Keeps P m m := ⟨fun _ => rfl, fun _ _ => rfl⟩

theorem Adds.keeps [AddCommMonoid α] {P : Nat → Prop} {m0 m m' : Buf α} {f : Nat → α} (h : Keeps P m0 m) (ha : Adds m m' f)
    (hf : ∀ c, P c → f c = 0) : Keeps P m0 m' := by
  refine ⟨fun c => ?_, fun c hc => ?_⟩
  · rw [ha c, Option.isSome_map, h.1 c]
  · rw [ha c, hf c hc, ← h.2 c hc]
    cases m c <;> simp

theorem Adds.trans [AddCommMonoid α] {m m' m'' : Buf α} {f g : Nat → α} (h : Adds m m' f) (h' : Adds m' m'' g) :
    Adds m m'' (fun c => f c + g c) := by
  intro c
  rw [h' c, h c]
  cases m c <;> simp [add_assoc]

/-- See the head of the file. -/
def Acc [AddCommMonoid α] (P : Nat → Prop) (m0 : Buf α) (prog : Buf α → Res (Buf α)) (f : Nat → α) : Prop :=
  (∀ c, P c → f c = 0) ∧ ∀ m, Keeps P m0 m → ∃ m', prog m = .ok m' ∧ Adds m m' f

theorem Acc.forM [AddCommMonoid α] {ι : Type} {P : Nat → Prop} {m0 : Buf α} (l : List ι) (body : Buf α → ι → Res (Buf α))
    (f : ι → Nat → α) (h : ∀ i ∈ l, Acc P m0 (fun m => body m i) (f i)) :
    Acc P m0 (fun m => Res.forM l m body) (fun c => (l.map (f · c)).sum) := by
  induction l with
  | nil =>
    refine ⟨fun _ _ => rfl, fun m _ => ⟨m, rfl, fun c => ?_⟩⟩
    cases m c <;> simp
  | cons i l ih =>
    obtain ⟨h1, h2⟩ := h i (by simp)
    obtain ⟨k1, k2⟩ := ih fun j hj => h j (by simp [hj])
    refine ⟨fun c hc => ?_, fun m hm => ?_⟩
    · simp only [List.map_cons, List.sum_cons, h1 c hc, k1 c hc, add_zero]
    · obtain ⟨m', e, ha⟩ := h2 m hm
      obtain ⟨m'', e', ha'⟩ := k2 m' (Adds.keeps hm ha h1)
      refine ⟨m'', ?_, ?_⟩
      · dsimp only at e ⊢
        rw [Res.forM_cons, e, Res.ok_bind]
        exact e'
      · simpa only [List.map_cons, List.sum_cons] using ha.trans ha'

theorem Acc.loop [AddCommMonoid α] {P : Nat → Prop} {m0 : Buf α} (n : Nat) (body : Nat → Buf α → Res (Buf α))
    (f : Nat → Nat → α) (h : ∀ i, i < n → Acc P m0 (body i) (f i)) :
    Acc P m0 (fun m => loop n m body) (fun c => ((List.range n).map (f · c)).sum) :=
  Acc.forM (List.range n) (fun s i => body i s) f fun i hi => h i (List.mem_range.1 hi)

theorem Acc.congr [AddCommMonoid α] {P : Nat → Prop} {m0 : Buf α} {prog prog' : Buf α → Res (Buf α)} {f f' : Nat → α}
    (h : Acc P m0 prog f) (hp : ∀ m, Keeps P m0 m → prog' m = prog m) (hf : ∀ c, f' c = f c) : Acc P m0 prog' f' := by
  have e2 : f' = f := funext hf
  rw [e2]
  refine ⟨h.1, fun m hm => ?_⟩
  rw [hp m hm]
  exact h.2 m hm

theorem rd_of {m : Buf α} {c : Int} {v : α} (h : m.cellAt c = some v) : rd m c = .ok v := by
  unfold Buf.cellAt at h
  unfold rd
  by_cases h0 : 0 ≤ c
  · rw [if_pos h0] at h ⊢; simp [Buf.read, h]
  · rw [if_neg h0] at h; cases h

theorem Keeps.rd {P : Nat → Prop} {m0 m : Buf α} (h : Keeps P m0 m) {c : Int} {v : α} (hv : m0.cellAt c = some v)
    (hc : P c.toNat) : rd m c = .ok v := by
  apply rd_of
  unfold Buf.cellAt at hv ⊢
  by_cases h0 : 0 ≤ c
  · rw [if_pos h0] at hv ⊢; rw [h.2 _ hc, hv]
  · rw [if_neg h0] at hv; cases hv

/-- What adding `t` to the cell at `c0` adds. -/
def spot [Zero α] (c0 : Int) (t : α) (c : Nat) : α := if c0 = c then t else 0

theorem Acc.inc [AddCommMonoid α] {P : Nat → Prop} {m0 : Buf α} {c0 : Int} {t : α} (hs : (m0.cellAt c0).isSome)
    (hP : ∀ c : Nat, c0 = c → ¬ P c) : Acc P m0 (fun m => inc m c0 t) (spot c0 t) := by
  refine ⟨fun c hc => if_neg fun e => hP c e hc, fun m hm => ?_⟩
  have h0 : 0 ≤ c0 := by
    by_contra hn; simp [Buf.cellAt, hn] at hs
  rw [Buf.cellAt, if_pos h0, ← hm.1] at hs
  obtain ⟨a, ha⟩ := Option.isSome_iff_exists.1 hs
  refine ⟨fun b => if b = c0.toNat then some (a + t) else m b, ?_, ?_⟩
  · simp [Conv.inc, Conv.rd, wr, h0, Buf.read, Buf.write, ha]
  · intro b
    unfold spot
    dsimp only
    by_cases hb : b = c0.toNat
    · subst hb
      rw [if_pos rfl, if_pos (by omega), ha]; rfl
    · rw [if_neg hb, if_neg (by omega)]
      cases m b <;> simp

/-- Adding `G ix` to every entry of `v`. -/
def spread [AddCommMonoid α] (v : SV) (G : List Nat → α) (c : Nat) : α :=
  ((allIndices v.dims).map fun ix => if v.cell ix = c then G ix else 0).sum

theorem spread_nil [AddCommMonoid α] (v : SV) (h : v.dims = []) (G : List Nat → α) (c : Nat) :
    spread v G c = spot (v.cell []) (G []) c := by
  simp [spread, h, allIndices, spot]

theorem sum_flatMap' [AddCommMonoid α] {ι κ : Type} (l : List ι) (f : ι → List κ) (g : κ → α) :
    ((l.flatMap f).map g).sum = (l.map fun i => ((f i).map g).sum).sum := by
  induction l with
  | nil => rfl
  | cons i l ih => simp [List.flatMap_cons, ih]

theorem spread_cons [AddCommMonoid α] (v : SV) (hv : v.WF) {n : Nat} {ds : List Nat} (h : v.dims = n :: ds) (G : List Nat → α)
    (c : Nat) : ((List.range n).map fun (i : Nat) => spread (v.sub i) (fun ix => G (i :: ix)) c).sum = spread v G c := by
  unfold spread
  rw [h, allIndices, sum_flatMap']
  refine congrArg List.sum (List.map_congr_left fun i _ => ?_)
  have e : (v.sub i).dims = ds := by simp [SV.sub, h]
  rw [e, List.map_map]
  refine congrArg List.sum (List.map_congr_left fun ix _ => ?_)
  simp only [Function.comp_apply, v.sub_cell (hv.strides_ne h)]

theorem sum_map_zero' [AddCommMonoid α] {ι : Type} (l : List ι) : (l.map fun _ => (0 : α)).sum = 0 := by
  induction l with
  | nil => rfl
  | cons i l ih => simp [ih]

theorem sum_comm' [AddCommMonoid α] {ι κ : Type} (l : List ι) (k : List κ) (f : ι → κ → α) :
    (l.map fun i => (k.map fun j => f i j).sum).sum = (k.map fun j => (l.map fun i => f i j).sum).sum := by
  induction l with
  | nil => simp
  | cons i l ih => simp [ih, List.sum_map_add]

theorem spread_sum [AddCommMonoid α] {ι : Type} (v : SV) (l : List ι) (G : ι → List Nat → α) (c : Nat) :
    (l.map fun j => spread v (G j) c).sum = spread v (fun ix => (l.map fun j => G j ix).sum) c := by
  unfold spread
  rw [sum_comm']
  refine congrArg List.sum (List.map_congr_left fun ix _ => ?_)
  by_cases h : v.cell ix = c
  · simp [h]
  · simp [h]

theorem spread_congr [AddCommMonoid α] (v : SV) {G G' : List Nat → α} (h : ∀ ix, InRange ix v.dims → G ix = G' ix) (c : Nat) :
    spread v G c = spread v G' c := by
  unfold spread
  refine congrArg List.sum (List.map_congr_left fun ix hix => ?_)
  rw [h ix (mem_allIndices.1 hix)]

theorem sum_single [AddCommMonoid α] {ι : Type} (l : List ι) (hl : l.Nodup) (f : ι → α) (i : ι) (hi : i ∈ l)
    (h : ∀ j ∈ l, j ≠ i → f j = 0) : (l.map f).sum = f i := by
  induction l with
  | nil => simp at hi
  | cons a l ih =>
    rw [List.nodup_cons] at hl
    rw [List.map_cons, List.sum_cons]
    by_cases e : a = i
    · subst e
      have : (l.map f).sum = 0 := by
        rw [List.map_congr_left (g := fun _ => (0 : α)) fun j hj => h j (by simp [hj]) fun e => hl.1 (e ▸ hj)]
        exact sum_map_zero' l
      rw [this, add_zero]
    · rw [h a (by simp) e, zero_add]
      refine ih hl.2 ?_ fun j hj => h j (by simp [hj])
      simpa [Ne.symm e] using hi

theorem spread_at [AddCommMonoid α] (v : SV) (hv : v.Inj) (G : List Nat → α) (ix : List Nat) (hix : InRange ix v.dims) (c : Nat)
    (hc : v.cell ix = c) : spread v G c = G ix := by
  unfold spread
  rw [sum_single (allIndices v.dims) (allIndices_nodup v.dims) _ ix (mem_allIndices.2 hix)]
  · rw [if_pos hc]
  · intro jx hjx hne
    rw [if_neg]
    intro e
    exact hne (hv jx ix (mem_allIndices.1 hjx) hix (e.trans hc.symm))

theorem spread_off [AddCommMonoid α] (v : SV) (G : List Nat → α) (c : Nat) (hc : ∀ ix, InRange ix v.dims → v.cell ix ≠ c) :
    spread v G c = 0 := by
  unfold spread
  rw [List.map_congr_left (g := fun _ => (0 : α)) fun ix hix => if_neg (hc ix (mem_allIndices.1 hix))]
  exact sum_map_zero' _

/-- A program that adds `spread v G` gains `G`. -/
theorem Acc.gains [AddCommMonoid α] {P : Nat → Prop} {m : Buf α} {prog : Buf α → Res (Buf α)} {v : SV} {G : List Nat → α}
    (h : Acc P m prog (spread v G)) (hi : v.Inj) : ∃ m', prog m = .ok m' ∧ v.Gains G m m' := by
  obtain ⟨m', e, ha⟩ := h.2 m (Keeps.refl P m)
  refine ⟨m', e, fun ix hix a hv => ?_, fun c hc => ?_⟩
  · unfold SV.val Buf.cellAt at hv ⊢
    by_cases h0 : 0 ≤ v.cell ix
    · rw [if_pos h0] at hv ⊢
      rw [ha, hv, spread_at v hi G ix hix _ (by omega)]; rfl
    · rw [if_neg h0] at hv; cases hv
  · rw [ha c, spread_off v G c hc]
    cases m c <;> simp

/-- Every entry of `v` lies in `P`. -/
def In (P : Nat → Prop) (v : SV) : Prop := ∀ ix, InRange ix v.dims → P (v.cell ix).toNat

/-- No entry of `v` lies in `P`. -/
def Out (P : Nat → Prop) (v : SV) : Prop := ∀ ix, InRange ix v.dims → ∀ c : Nat, v.cell ix = c → ¬ P c

section sub
variable {v : SV} (hv : v.WF) {n : Nat} {ds : List Nat} (hd : v.dims = n :: ds) {i : Nat} (hi : i < n)
include hv hd hi

theorem sub_inRange {ix : List Nat} (hix : InRange ix (v.sub i).dims) : InRange (i :: ix) v.dims := by
  have e : (v.sub i).dims = ds := by simp [SV.sub, hd]
  rw [hd]
  exact inRange_cons.2 ⟨hi, e ▸ hix⟩

theorem Holds_sub {m : Buf α} {f : List Nat → α} (h : v.Holds m f) : (v.sub i).Holds m (fun ix => f (i :: ix)) := by
  intro ix hix
  have := h _ (sub_inRange hv hd hi hix)
  rwa [SV.val, ← v.sub_cell (hv.strides_ne hd)] at this

theorem Has_sub {m : Buf α} (h : v.Has m) : (v.sub i).Has m := by
  intro ix hix
  have := h _ (sub_inRange hv hd hi hix)
  rwa [SV.val, ← v.sub_cell (hv.strides_ne hd)] at this

theorem In_sub {P : Nat → Prop} (h : In P v) : In P (v.sub i) := by
  intro ix hix
  rw [v.sub_cell (hv.strides_ne hd)]
  exact h _ (sub_inRange hv hd hi hix)

theorem Out_sub {P : Nat → Prop} (h : Out P v) : Out P (v.sub i) := by
  intro ix hix
  rw [v.sub_cell (hv.strides_ne hd)]
  exact h _ (sub_inRange hv hd hi hix)

end sub

end Cnine
