import Verif.Spec.View
import Verif.Model.Basic

/-! # Specification vocabulary for element-wise operations on memory -/

namespace Cnine

variable {α : Type _}

/-- Every cell of the view is allocated. -/
def View.Alloc (v : View) (m : Buf α) : Prop := ∀ ix, InRange ix v.dims → (m (v.cell ix)).isSome

/-- Different indices address different cells. -/
def View.Distinct (v : View) : Prop :=
  ∀ ix jx, InRange ix v.dims → InRange jx v.dims → v.cell ix = v.cell jx → ix = jx

/-- The views share no cell. -/
def View.Apart (r x : View) : Prop :=
  ∀ ix jx, InRange ix r.dims → InRange jx x.dims → r.cell ix ≠ x.cell jx

/-- The views share a cell only at the same index (e.g. a tensor and itself). -/
def View.Aligned (r x : View) : Prop :=
  ∀ ix jx, InRange ix r.dims → InRange jx x.dims → r.cell ix = x.cell jx → ix = jx

/-- `m'` is `m` except that every element of `r` at index `ix` became `new ix`. -/
def Updated (r : View) (new : List Nat → Option α) (m m' : Buf α) : Prop :=
  (∀ ix, InRange ix r.dims → m' (r.cell ix) = new ix) ∧
  ∀ c, (∀ ix, InRange ix r.dims → c ≠ r.cell ix) → m' c = m c

/-- Contents of a view as a function of the index (`none` for unallocated cells). -/
def View.val (v : View) (m : Buf α) (ix : List Nat) : Option α := m (v.cell ix)

end Cnine
