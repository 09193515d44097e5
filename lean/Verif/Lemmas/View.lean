import Verif.Spec.View
import Verif.Lemmas.Strides
import Verif.Lemmas.Gvec
import Mathlib.Tactic.Push

namespace Cnine

theorem inRange_append {a b A B : List Nat} (h : a.length = A.length) :
    InRange (a ++ b) (A ++ B) ↔ InRange a A ∧ InRange b B := by
  unfold InRange
  constructor
  · intro hh
    induction a generalizing A with
    | nil =>
      have : A = [] := List.length_eq_zero_iff.1 h.symm
      subst this
      exact ⟨.nil, hh⟩
    | cons x a ih =>
      cases A with
      | nil => simp at h
      | cons y A =>
        simp only [List.cons_append, List.forall₂_cons] at hh ⊢
        obtain ⟨h1, h2⟩ := hh
        have := ih (by simpa using h) h2
        exact ⟨⟨h1, this.1⟩, this.2⟩
  · rintro ⟨h1, h2⟩
    exact List.rel_append h1 h2

theorem inRange_cons {i d : Nat} {is ds : List Nat} :
    InRange (i :: is) (d :: ds) ↔ i < d ∧ InRange is ds := by
  unfold InRange; simp

theorem inRange_nil : InRange [] [] := List.Forall₂.nil

theorem split_at {α} (l : List α) (k : Nat) (h : k < l.length) :
    ∃ A x B, l = A ++ x :: B ∧ A.length = k ∧ l[k] = x :=
  ⟨l.take k, l[k], l.drop (k + 1), by simp, by simp; omega, rfl⟩

theorem split_le {α} (l : List α) (k : Nat) (h : k ≤ l.length) :
    ∃ A B, l = A ++ B ∧ A.length = k :=
  ⟨l.take k, l.drop k, by simp, by simp; omega⟩

theorem addr_eq (v : View) (ix : List Nat) (h : ix.length ≤ v.strides.length) :
    v.addr ix = .ok (v.cell ix) := by
  simp [View.addr, offs_eq _ _ h, View.cell]

theorem cells_eq_axCells (v : View) (h : v.WF) :
    v.cells = (axCells (v.dims.zip v.strides)).map (v.off + ·) := by
  rw [← map_dot_eq_axCells _ _ h.symm, List.map_map]
  rfl

/-- `remove` at a split point. -/
theorem gvRemove_split {α} (A B : List α) (x : α) : gvRemove (A ++ x :: B) A.length = .ok (A ++ B) := by
  simp [gvRemove]

theorem gvInsert_split {α} (A B : List α) (x : α) : gvInsert (A ++ B) A.length x = .ok (A ++ x :: B) := by
  simp [gvInsert]

theorem gvSet_split {α} (A B : List α) (x y : α) :
    gvSet (A ++ x :: B) A.length y = .ok (A ++ y :: B) := by
  simp [gvSet]

theorem get_split {α} (A B : List α) (x : α) : Res.get (A ++ x :: B) A.length = .ok x := by
  simp [Res.get]

theorem shift_nat (o s i : Nat) : View.shift o ((s : Int) * (i : Int)) = .ok (o + s * i) := by
  have h : ((o : Int) + (s : Int) * (i : Int)) = ((o + s * i : Nat) : Int) := by push_cast; rfl
  unfold View.shift
  rw [h, if_pos (Int.natCast_nonneg _), Int.toNat_natCast]

theorem eraseIdx_split {α} (A B : List α) (x : α) : (A ++ x :: B).eraseIdx A.length = A ++ B := by
  rw [List.eraseIdx_append_of_length_le (Nat.le_refl _)]; simp

theorem modify_split {α} (A B : List α) (x : α) (f : α → α) :
    (A ++ x :: B).modify A.length f = A ++ f x :: B := by
  induction A with
  | nil => simp
  | cons a A ih => simp [ih]

theorem inRange_split {ix A B : List Nat} {d : Nat} (h : InRange ix (A ++ d :: B)) :
    ∃ a i b, ix = a ++ i :: b ∧ a.length = A.length ∧ InRange a A ∧ i < d ∧ InRange b B := by
  have hl := h.length
  obtain ⟨a, i, b, rfl, ha, -⟩ := split_at ix A.length (by simp at hl; omega)
  have := (inRange_append ha).1 h
  rw [inRange_cons] at this
  exact ⟨a, i, b, rfl, ha, this.1, this.2.1, this.2.2⟩

theorem inRange_split2 {ix A B : List Nat} (h : InRange ix (A ++ B)) :
    ∃ a b, ix = a ++ b ∧ a.length = A.length ∧ InRange a A ∧ InRange b B := by
  have hl := h.length
  obtain ⟨a, b, rfl, ha⟩ := split_le ix A.length (by simp at hl; omega)
  have := (inRange_append ha).1 h
  exact ⟨a, b, rfl, ha, this.1, this.2⟩

end Cnine

namespace Cnine

/-! ### regular strides -/

theorem isChain_append (t : Nat) (l : List (Nat × Nat)) (d s : Nat) :
    IsChain t (l ++ [(d, s)]) ↔ IsChain t l ∧ s = t * (l.map Prod.fst).prod := by
  induction l generalizing t with
  | nil => simp [IsChain]
  | cons x r ih =>
    obtain ⟨e, q⟩ := x
    simp only [List.cons_append, IsChain, ih, List.map_cons, List.prod_cons]
    rw [Nat.mul_assoc]
    tauto

theorem isChain_iff_rmStrides (dims strides : List Nat) (h : strides.length = dims.length) :
    IsChain 1 (dims.zip strides).reverse ↔ strides = rmStrides dims := by
  induction dims generalizing strides with
  | nil =>
    have : strides = [] := List.length_eq_zero_iff.1 h
    subst this; simp [IsChain]
  | cons d ds ih =>
    cases strides with
    | nil => simp at h
    | cons s ss =>
      have hl : ss.length = ds.length := by simpa using h
      rw [List.zip_cons_cons, List.reverse_cons, isChain_append, ih ss hl, rmStrides_cons,
        List.map_reverse, List.prod_reverse, List.map_fst_zip (by omega)]
      simp only [List.cons.injEq, Nat.one_mul]
      tauto

theorem isRegular_iff (dims strides : List Nat) :
    isRegular strides dims = .ok true ↔ strides = rmStrides dims := by
  unfold isRegular
  by_cases h : strides.length = dims.length
  · simp only [h, decide_true, Res.assrt_true, Res.ok_bind, Res.ok.injEq]
    rw [regularLoop_iff, zip_reverse_swap _ _ h, isChain_iff_rmStrides _ _ h]
  · simp only [h, decide_false, Res.assrt_false, Res.throw_bind]
    constructor
    · intro h'; cases h'
    · intro h'; exact absurd (by rw [h', rmStrides_length]) h

theorem rm_cells (off : Nat) (dims : List Nat) :
    (View.mk off dims (rmStrides dims)).cells = (List.range dims.prod).map (off + ·) := by
  rw [← map_position_allIndices, List.map_map]
  apply List.map_congr_left
  intro ix hix
  have := (mem_allIndices.1 hix).length
  simp [View.cell, dot_rmStrides dims ix this]

/-! ### axes in the middle -/

section
variable {M : Type _} [AddCommMonoid M]

theorem axCells_append (l k : List (Nat × M)) :
    axCells (l ++ k) = (axCells l).flatMap fun a => (axCells k).map (a + ·) := by
  induction l with
  | nil => simp [axCells]
  | cons x r ih =>
    obtain ⟨d, s⟩ := x
    rw [List.cons_append, axCells_cons, axCells_cons, List.flatMap_assoc]
    refine List.flatMap_congr fun i _ => ?_
    rw [ih, List.map_flatMap, List.flatMap_map]
    refine List.flatMap_congr fun a _ => ?_
    rw [List.map_map]
    apply List.map_congr_left
    intro b _
    simp [add_assoc]

theorem axCells_append_congr {l l' k k' : List (Nat × M)} (h : (axCells l).Perm (axCells l'))
    (h' : (axCells k).Perm (axCells k')) : (axCells (l ++ k)).Perm (axCells (l' ++ k')) := by
  rw [axCells_append, axCells_append]
  exact (List.Perm.flatMap_left _ (fun a _ => h'.map _)).trans (h.flatMap_right _)

end

/-! ### permutation of axes -/

theorem dot_perm (s ix p : List Nat) (hs : s.length = ix.length) (hp : p.Perm (List.range s.length)) :
    dot (p.map fun j => s[j]?.getD 0) (p.map fun j => ix[j]?.getD 0) = dot s ix := by
  have h1 : dot (p.map fun j => s[j]?.getD 0) (p.map fun j => ix[j]?.getD 0)
      = (p.map fun j => s[j]?.getD 0 * ix[j]?.getD 0).sum := by
    unfold dot
    rw [List.zip_map', List.map_map]
    rfl
  have h2 : dot s ix = ((List.range s.length).map fun j => s[j]?.getD 0 * ix[j]?.getD 0).sum := by
    unfold dot
    rw [← map_range_getD s ix hs, List.map_map]
    rfl
  rw [h1, h2]
  exact (hp.map _).sum_eq

theorem inRange_getD {ix dims : List Nat} (h : InRange ix dims) (j : Nat) (hj : j < dims.length) :
    ix[j]?.getD 0 < dims[j]?.getD 0 := by
  have hl := h.length
  have := (List.forall₂_iff_get.1 h).2 j (by omega) hj
  simpa [List.getElem?_eq_getElem, hj, hl] using this

theorem inRange_of_getD {ix dims : List Nat} (hl : ix.length = dims.length)
    (h : ∀ j, j < dims.length → ix[j]?.getD 0 < dims[j]?.getD 0) : InRange ix dims := by
  refine List.forall₂_iff_get.2 ⟨hl, fun i h1 h2 => ?_⟩
  have := h i h2
  simpa [List.getElem?_eq_getElem, h1, h2] using this

theorem inRange_perm {ix dims p : List Nat} (h : InRange ix dims) (hp : ∀ j ∈ p, j < dims.length) :
    InRange (p.map fun j => ix[j]?.getD 0) (p.map fun j => dims[j]?.getD 0) := by
  unfold InRange
  rw [List.forall₂_map_left_iff, List.forall₂_map_right_iff]
  exact List.forall₂_same.2 fun j hj => inRange_getD h j (hp j hj)

end Cnine
