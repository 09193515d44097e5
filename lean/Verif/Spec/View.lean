import Verif.Spec.Index
import Verif.Model.View

/-! # Specification vocabulary for views -/

namespace Cnine

/-- Memory cell of a view at a multi-index. -/
def View.cell (v : View) (ix : List Nat) : Nat := v.off + dot v.strides ix

/-- One stride per axis. -/
def View.WF (v : View) : Prop := v.strides.length = v.dims.length

instance (v : View) : Decidable v.WF := inferInstanceAs (Decidable (_ = _))

/-- Every legal index of `w` addresses the cell of `v` at the (legal) index `f ix`. -/
def Relabels (w v : View) (f : List Nat → List Nat) : Prop :=
  w.WF ∧ ∀ ix, InRange ix w.dims → InRange (f ix) v.dims ∧ w.cell ix = v.cell (f ix)

/-- `Relabels`, and `f` is a bijection between the legal indices of `w` and those of `v`. -/
def RelabelsBij (w v : View) (f : List Nat → List Nat) : Prop :=
  Relabels w v f ∧
  (∀ ix jx, InRange ix w.dims → InRange jx w.dims → f ix = f jx → ix = jx) ∧
  ∀ jx, InRange jx v.dims → ∃ ix, InRange ix w.dims ∧ f ix = jx

/-- The cells of a view, in row-major order of its indices (with multiplicity). -/
def View.cells (v : View) : List Nat := (allIndices v.dims).map v.cell

end Cnine
