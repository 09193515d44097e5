/-
What a pack of tensors holds: a list of tensors, one after the other in the array (legacy/tensor/RtensorPack.hpp:34-629).
-/
import Verif.Model.TensorPack

namespace Cnine
namespace TPk

variable {α : Type}

/-- A tensor with `nd` sizes has as many cells as its sizes say. -/
def Ten.Ok (nd : Nat) (x : Ten α) : Prop := x.dims.length = nd ∧ x.cells.length = x.dims.prod

/-- The cells of all tensors one after the other. -/
def cellsOf (L : List (Ten α)) : List (Option α) := (L.map Ten.cells).flatten

/-- The rows of the directory when the first tensor starts at `a`. -/
def rowsOf (a : Nat) : List (Ten α) → List (List (Option Nat))
  | [] => []
  | x :: L => (some a :: x.dims.map some) :: rowsOf (a + x.cells.length) L

/-- The pack `p` holds the tensors `L`, each with `nd` sizes. -/
structure Holds (p : TP α) (nd : Nat) (L : List (Ten α)) : Prop where
  ok : ∀ x ∈ L, x.Ok nd
  dir : ∃ cap, p.dir = some ⟨nd + 1, rowsOf 0 L, cap⟩ ∧ L.length ≤ cap
  tail : p.tail = (cellsOf L).length
  le : p.tail ≤ p.memsize
  mem : (p.arr = none ∧ p.memsize = 0) ∨ ∃ l, p.arr = some l ∧ l.length = max p.memsize 1 ∧ l.take p.tail = cellsOf L

/-- A tensor all of whose cells have been written. -/
def Ten.of (dims : List Nat) (v : List α) : Ten α := ⟨dims, v.map some⟩

/-- `N` tensors of sizes `dims` with the numbers `f 0, f 1, …` one after the other. -/
def blocksOf (f : Nat → Option α) (dims : List Nat) (N : Nat) : List (Ten α) :=
  (List.range N).map fun i => ⟨dims, (List.range dims.prod).map fun j => f (i * dims.prod + j)⟩

/-- The cells `c` cut into tensors of the given sizes. -/
def cut (c : List (Option α)) : List (List Nat) → List (Ten α)
  | [] => []
  | d :: l => ⟨d, c.take d.prod⟩ :: cut (c.drop d.prod) l

/-- A view (first cell, sizes, strides) as made by legacy/tensor/RtensorPack.hpp:469-491 shows tensor `i`: it has its sizes, and cell `c` behind its first cell is cell `c` of the tensor. -/
def Shows (p : TP α) (L : List (Ten α)) (i : Nat) (hi : i < L.length) (v : Nat × List Nat × List Nat) : Prop :=
  v.2.1 = L[i].dims ∧ ∀ c, c < L[i].cells.length → readN p.arr (v.1 + c) 1 = .ok ((L[i].cells.drop c).take 1)

/-- The tensors of the given sizes whose numbers one after the other are `v`. -/
def full (ds : List (List Nat)) (v : List α) : List (Ten α) := cut (v.map some) ds

/-- The number of cells of tensors of the given sizes. -/
def total (ds : List (List Nat)) : Nat := (ds.map List.prod).sum

end TPk
end Cnine
