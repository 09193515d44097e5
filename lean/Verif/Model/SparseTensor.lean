import Verif.Model.Maps
import Verif.Model.Basic

/-!
# Sparse tensors

legacy/tensor/SparseTensor.hpp: a tensor that stores only the entries that were set.  Tensors with two axes keep them in a map of maps, all others in a map of indices.  `int` is unbounded.
`CNINE_CHECK_RANGE` is compiled out, so no index is checked.

Not modelled: `operator()` of objects that are not `const` with one to three numbers (126-149: a temporary is returned as a reference, which does not compile), `for_each_nonzero` of such objects (197-204),
printing.
-/

namespace Cnine

/-- legacy/tensor/SparseTensor.hpp:32-36. -/
structure SpTen (α : Type) where
  map : UMap (List Int) α
  map2 : MoM Int Int α
  dims : List Nat
  mom : Bool

namespace SpTen

variable {α : Type}

/-- legacy/tensor/SparseTensor.hpp:41-44. -/
def make (dims : List Nat) : SpTen α := ⟨[], [], dims, dims.length == 2⟩

/-- legacy/tensor/SparseTensor.hpp:61-64. -/
def nfilled (t : SpTen α) : Nat := if t.mom then t.map2.size else t.map.length

/-- `ix[i]`: reading behind the end of an index is undefined. -/
def at? (ix : List Int) (i : Nat) : Res Int := Res.get ix i

/-- legacy/tensor/SparseTensor.hpp:82-86. -/
def isFilled (t : SpTen α) (ix : List Int) : Res Bool :=
  if t.mom then do
    let i ← at? ix 0
    let j ← at? ix 1
    .ok (t.map2.isFilled i j)
  else .ok (UMap.find? ix t.map).isSome

/-- legacy/tensor/SparseTensor.hpp:66-69. -/
def isFilled1 (t : SpTen α) (i0 : Int) : Bool := (UMap.find? [i0] t.map).isSome

/-- legacy/tensor/SparseTensor.hpp:71-75. -/
def isFilled2 (t : SpTen α) (i0 i1 : Int) : Bool := if t.mom then t.map2.isFilled i0 i1 else (UMap.find? [i0, i1] t.map).isSome

/-- legacy/tensor/SparseTensor.hpp:77-80. -/
def isFilled3 (t : SpTen α) (i0 i1 i2 : Int) : Bool := (UMap.find? [i0, i1, i2] t.map).isSome

/-- legacy/tensor/SparseTensor.hpp:92-97, `zero` is `TYPE()`. -/
def get1 (zero : α) (t : SpTen α) (i0 : Int) : α := (UMap.find? [i0] t.map).getD zero

/-- legacy/tensor/SparseTensor.hpp:99-107. -/
def get2 (zero : α) (t : SpTen α) (i0 i1 : Int) : α := if t.mom then t.map2.get zero i0 i1 else (UMap.find? [i0, i1] t.map).getD zero

/-- legacy/tensor/SparseTensor.hpp:109-114. -/
def get3 (zero : α) (t : SpTen α) (i0 i1 i2 : Int) : α := (UMap.find? [i0, i1, i2] t.map).getD zero

/-- legacy/tensor/SparseTensor.hpp:116-121, 151-156: only `map` is searched. -/
def get (zero : α) (t : SpTen α) (ix : List Int) : α := (UMap.find? ix t.map).getD zero

/-- legacy/tensor/SparseTensor.hpp:162-165. -/
def set1 (t : SpTen α) (i0 : Int) (x : α) : SpTen α := { t with map := UMap.set [i0] x t.map }

/-- legacy/tensor/SparseTensor.hpp:167-171. -/
def set2 (t : SpTen α) (i0 i1 : Int) (x : α) : SpTen α := if t.mom then { t with map2 := t.map2.set i0 i1 x } else { t with map := UMap.set [i0, i1] x t.map }

/-- legacy/tensor/SparseTensor.hpp:173-176. -/
def set3 (t : SpTen α) (i0 i1 i2 : Int) (x : α) : SpTen α := { t with map := UMap.set [i0, i1, i2] x t.map }

/-- legacy/tensor/SparseTensor.hpp:178-182. -/
def set (t : SpTen α) (ix : List Int) (x : α) : Res (SpTen α) :=
  if t.mom then do
    let i ← at? ix 0
    let j ← at? ix 1
    .ok { t with map2 := t.map2.set i j x }
  else .ok { t with map := UMap.set ix x t.map }

/-- legacy/tensor/SparseTensor.hpp:46-51: `mask` lists the pairs in the order of its `for_each`; `num` converts an `int`. -/
def ofMask (num : Nat → α) (dims : List Nat) (mask : List (Int × Int)) : Res (SpTen α) := do
  Res.assrt (dims.length = 2)
  .ok (mask.foldl (fun (s : SpTen α × Nat) p => (s.1.set2 p.1 p.2 (num s.2), s.2 + 1)) (⟨[], [], dims, true⟩, 0)).1

/-- legacy/tensor/SparseTensor.hpp:188-195 `for_each_nonzero`: the arguments of the calls of `lambda`. -/
def forEach (t : SpTen α) : List (List Int × α) := if t.mom then t.map2.forEach.map fun e => ([e.1, e.2.1], e.2.2) else t.map

end SpTen

end Cnine
