import Verif.Model.View
import Verif.Model.RView

/-!
# Model of dimension labels, tensor specifications and labelled tensors

Dimensions in a specification are C++ `int`s and may be negative; in a tensor they are natural numbers.  `dev` is 0 in
a tensor (the device field of a specification is kept).
-/

namespace Cnine

variable {α : Type _}

/-- tensors/DimLabels.hpp:24-36: is the first axis a batch axis, and how many grid axes follow. -/
structure Labels where
  batched : Bool
  narray : Int
  deriving Repr, DecidableEq

namespace Labels

/-- tensors/DimLabels.hpp:27 `_batched` used as a number. -/
def nb (l : Labels) : Int := if l.batched then 1 else 0

/-- tensors/DimLabels.hpp:50-53 `nbatch(dims)`: `dims[0]` unchecked; 0 without a batch axis. -/
def nbatch (l : Labels) (dims : List Int) : Res Int := if l.batched then Res.get dims 0 else .ok 0

/-- tensors/DimLabels.hpp:64-70 `gdims(dims)`, `gstrides(strides)`. -/
def gpart (l : Labels) (x : List α) : Res (List α) := gvChunk x l.nb l.narray

/-- tensors/DimLabels.hpp:81-87 `cdims(dims)`, `cstrides(strides)`. -/
def cpart (l : Labels) (x : List α) : Res (List α) := gvChunk x (l.nb + l.narray) (-1)

/-- tensors/DimLabels.hpp:93-101 `bcdims(dims)`, `bcstrides(strides)`. -/
def bcpart (l : Labels) (x : List α) : Res (List α) :=
  if !l.batched then gvChunk x l.narray (-1)
  else do
    let r ← gvChunk x (1 + l.narray) (-1)
    let b ← Res.get x 0
    .ok (gvPrepend r b)

/-- tensors/DimLabels.hpp:55-58 `set_batched(x)`. -/
def setBatched (l : Labels) (x : Bool) : Labels := ⟨x, l.narray⟩

/-- tensors/DimLabels.hpp:72-75 `set_ngrid(x)`. -/
def setNgrid (l : Labels) (x : Int) : Labels := ⟨l.batched, x⟩

end Labels

/-- tensors/LtensorSpec.hpp:30-37: the fields of a specification. -/
structure LSpec where
  adims : List Int := []
  ddims : List Int := []
  nbatch : Int := 0
  fcode : Int := 0
  dev : Int := 0
  deriving Repr, DecidableEq

namespace LSpec

/-- tensors/LtensorSpec.hpp:46-51 constructor from dims, labels and device. -/
def ofDims (dims : List Int) (l : Labels) (d : Int) : Res LSpec := do
  let b ← (if l.batched then Res.get dims 0 else .ok 0 : Res Int)
  let a ← gvChunk dims l.nb l.narray
  let c ← gvChunk dims (l.nb + l.narray) (-1)
  .ok { adims := a, ddims := c, nbatch := b, fcode := 0, dev := d }

/-- tensors/LtensorSpec.hpp:57-58 `batch(b)`, `batches(b)`. -/
def batch (s : LSpec) (b : Int) : LSpec := { s with nbatch := b }

/-- tensors/LtensorSpec.hpp:60-62 `grid(v)`. -/
def grid (s : LSpec) (v : List Int) : LSpec := { s with adims := v }

/-- tensors/LtensorSpec.hpp:64-66 `dims(v)`. -/
def dims (s : LSpec) (v : List Int) : LSpec := { s with ddims := v }

/-- tensors/LtensorSpec.hpp:68 `matrix(n,m)`. -/
def matrix (s : LSpec) (n m : Int) : LSpec := { s with ddims := [n, m] }

/-- tensors/LtensorSpec.hpp:75 `fcode(x)` (lines 70-74: `zero` 0, `raw` 1, `ones` 2, `sequential` 3, `gaussian` 4). -/
def setFcode (s : LSpec) (x : Int) : LSpec := { s with fcode := x }

/-- tensors/LtensorSpec.hpp:77 `dev(i)`. -/
def setDev (s : LSpec) (i : Int) : LSpec := { s with dev := i }

/-- include/Gdims.hpp:239-243 `extend(x)`: append one by one. -/
def extend (r x : List Int) : List Int := x.foldl (fun r p => r ++ [p]) r

/-- tensors/LtensorSpec.hpp:83-89 `get_dims()`. -/
def getDims (s : LSpec) : List Int :=
  let r : List Int := []
  let r := if 0 < s.nbatch then extend r [s.nbatch] else r
  let r := if s.adims.length ≠ 0 then extend r s.adims else r
  if s.ddims.length ≠ 0 then extend r s.ddims else r

/-- tensors/LtensorSpec.hpp:91-96 `get_labels()`. -/
def getLabels (s : LSpec) : Labels := ⟨decide (0 < s.nbatch), s.adims.length⟩

end LSpec
end Cnine
