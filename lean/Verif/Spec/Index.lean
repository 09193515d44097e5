import Mathlib.Algebra.BigOperators.Group.List.Basic
import Batteries.Data.List.Basic

/-!
# Specification of multi-indices, independent of the model's loops
-/

namespace Cnine

/-- `ix` is a legal multi-index for `dims`: same rank, each entry below its extent. -/
def InRange (ix dims : List Nat) : Prop := List.Forall₂ (· < ·) ix dims

/-- All legal multi-indices in lexicographic (row-major) order. -/
def allIndices : List Nat → List (List Nat)
  | [] => [[]]
  | d :: ds => (List.range d).flatMap fun i => (allIndices ds).map (i :: ·)

/-- Row-major position of a multi-index: Σ ixₖ · Π_{l>k} dimsₗ. -/
def position : List Nat → List Nat → Nat
  | _ :: ds, i :: is => i * ds.prod + position ds is
  | _, _ => 0

/-- Offset of a cell: Σ strideₖ · ixₖ. -/
def dot (strides ix : List Nat) : Nat := ((strides.zip ix).map fun p => p.1 * p.2).sum

/-- Largest offset reached by a list of (extent, stride) axes. -/
def span : List (Nat × Nat) → Nat
  | [] => 0
  | (d, s) :: r => (d - 1) * s + span r

end Cnine
