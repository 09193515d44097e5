import Verif.Model.BlockSparse
import Verif.Model.View

/-!
# Model of tensors with two sparse axes

sparse/SparseTensorView.hpp, sparse/SparseIndexer2.hpp and sparse/SparseIndexerBase.hpp.  Host memory only, `fcode` 0.  Natural
numbers are unbounded.

Not modelled: `str`; the `fcode`s other than 0 (they only fill the new memory); copies (the index is shared, the memory counted).
-/

namespace Cnine

variable {α : Type}

namespace SparseTV

/-- sparse/SparseIndexer2.hpp:31-36: the constructor, for a view `L` of a list of pairs: the offsets and `_nfilled`. -/
def indexer (L : RV2) (mi : Buf Int) : Res (DIMap Nat × Nat) :=
  loop L.n0 (DIMap.empty, 0) fun i s => do
    let a ← mi.read (L.cell i 0)
    let b ← mi.read (L.cell i 1)
    .ok (s.1.set a b s.2, s.2 + 1)

/-- sparse/SparseTensorView.hpp:76-80: the loop of `split_strides`, for the axes from `i` on. -/
def splitFrom (split : Int) (nsparse : Nat) : Nat → List Nat → List Nat
  | _, [] => []
  | _, [_] => [1]
  | i, _ :: d :: ds =>
    match splitFrom split nsparse (i + 1) (d :: ds) with
    | [] => []
    | s :: r => (if (i : Int) = split - 1 then s * d * nsparse else s * d) :: s :: r

/-- sparse/SparseTensorView.hpp:72-82: `split_strides`. -/
def splitStrides (ddims : List Nat) (split : Int) (nsparse : Nat) : Res (List Nat) := do
  Res.assrt (ddims.length > 0)
  .ok (splitFrom split nsparse 0 ddims)

/-- `v[i]` of a vector for an `int`: undefined outside (sparse/SparseTensorView.hpp:61,63; `v(i)` of 61 counts a negative index from the
end, but the same index is used with `v[i]` in 63). -/
def atInt (l : List Nat) (i : Int) : Res Nat := if i < 0 then .ub else Res.get l i.toNat

/-- sparse/SparseTensorView.hpp:32-40: the members. -/
structure Tensor where
  dims : List Nat
  ddims : List Nat
  dstrides : List Nat
  sstride : Nat
  offsets : DIMap Nat
  nfilled : Nat
  mx : View
deriving Repr, DecidableEq

/-- sparse/SparseTensorView.hpp:42-64: the constructor.  For lists whose rows are not pairs there is no indexer and 58 reads through a null
pointer.  `q` is where the memory is allocated. -/
def new [Zero α] (dims : List Nat) (split : Int) (L : RV2) (mi : Buf Int) (q : Nat) (m : Buf α) : Res (Tensor × Buf α) :=
  if L.n1 ≠ 2 then .ub
  else do
    let o ← indexer L mi
    let ddims ← gvChunk dims 2 (-1)
    let dstrides ← splitStrides ddims split o.2
    let s ← atInt dstrides split
    let d ← atInt ddims split
    .ok (⟨dims, ddims, dstrides, s * d, o.1, o.2, ⟨q, o.2 :: ddims, (s * d) :: dstrides⟩⟩, allocZero m q (o.2 * ddims.prod))

/-- sparse/SparseTensorView.hpp:92-94 with sparse/SparseIndexer2.hpp:50-52: `dense_block(i0,i1)`.  The map gives 0 for a pair that is not
there. -/
def block2 (x : Tensor) (i j : Int) : View := ⟨x.mx.off + x.offsets.get i j * x.sstride, x.ddims, x.dstrides⟩

/-- sparse/SparseTensorView.hpp:100-102 with sparse/SparseIndexer2.hpp:54-57: `dense_block(ix)`. -/
def blockIx (x : Tensor) (ix : List Int) : Res View :=
  match ix with
  | [i, j] => .ok (block2 x i j)
  | _ => .throw

/-- sparse/SparseTensorView.hpp:88-90 with sparse/SparseIndexerBase.hpp:31-34: `dense_block(i0)`; `SparseIndexer2` has no offsets for one
index, that of the base class prints a message and gives 0. -/
def block1 (x : Tensor) (_i : Int) : View := ⟨x.mx.off + 0 * x.sstride, x.ddims, x.dstrides⟩

/-- sparse/SparseTensorView.hpp:96-98 with sparse/SparseIndexerBase.hpp:41-44: `dense_block(i0,i1,i2)`. -/
def block3 (x : Tensor) (_i _j _k : Int) : View := ⟨x.mx.off + 0 * x.sstride, x.ddims, x.dstrides⟩

/-- sparse/SparseTensorView.hpp:108-111 with sparse/SparseIndexer2.hpp:63-65: `for_each_dense_block` with a `Gindex`, as the list of
arguments of the lambda. -/
def forEachIx (x : Tensor) : Res (List (List Int × View)) :=
  Res.forM x.offsets.forEach [] fun l e => do
    let v ← blockIx x [e.1, e.2.1]
    .ok (l ++ [([e.1, e.2.1], v)])

/-- sparse/SparseTensorView.hpp:113-116: `for_each_dense_block` with two indices.  `indexer` is a pointer to the base class, whose
`for_each` with three integers (sparse/SparseIndexerBase.hpp:50) is not const; that of sparse/SparseIndexer2.hpp:67-69 is const and
does not override it.  The function of the base class only prints a message. -/
def forEach2 (_x : Tensor) : List (Int × Int × View) := []

end SparseTV

end Cnine
