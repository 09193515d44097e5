/-
Packs of real tensors of different sizes in the memory of the host: legacy/tensor/RtensorPack.hpp:34-629.  A pack owns one array of numbers and a directory, an `IntTensor` with one row
`(address, sizes)` per tensor (tensors/IntTensor.hpp).  No two packs share an array, so a pack is modelled as a value; the array and the directory are lists of cells, `none` for a cell not
yet written.  `int` is `Nat`, `float` any type of numbers.  Not modelled: the GPU (`dev=1`), printing.
-/
import Verif.Model.Basic

namespace Cnine
namespace TPk

variable {α : Type}

/-- The directory (tensors/IntTensor.hpp:39-47) with sizes `{rows.length,k}` and room for `cap` rows; a row of which nothing can be read, as after a move, is empty. -/
structure Dir where
  k : Nat
  rows : List (List (Option Nat))
  cap : Nat
deriving DecidableEq

/-- legacy/tensor/RtensorPack.hpp:39-44; `arr = none` is the null pointer, `dir = none` a directory whose `dims.size()` is not two. -/
structure TP (α : Type) where
  arr : Option (List (Option α))
  memsize : Nat
  tail : Nat
  dir : Option Dir
deriving DecidableEq

/-- A tensor argument or result (legacy/backendA/RtensorA.hpp:354-362): its sizes and its `asize` cells. -/
structure Ten (α : Type) where
  dims : List Nat
  cells : List (Option α)
deriving DecidableEq

/-- The `n` cells from `o` on, read to be copied (the sources of `std::copy` in legacy/tensor/RtensorPack.hpp:193, 211, 267). -/
def readN (b : Option (List (Option α))) (o n : Nat) : Res (List (Option α)) :=
  if n = 0 then .ok [] else
  match b with
  | none => .ub
  | some l => if o + n ≤ l.length then .ok ((l.drop o).take n) else .ub

/-- The cells `l` written from `o` on (the targets of `std::copy` and `std::fill` in legacy/tensor/RtensorPack.hpp:77, 193, 211, 267). -/
def putN (b : Option (List (Option α))) (o : Nat) (l : List (Option α)) : Res (Option (List (Option α))) :=
  if l = [] then .ok b else
  match b with
  | none => .ub
  | some c => if o + l.length ≤ c.length then .ok (some (c.take o ++ l ++ c.drop (o + l.length))) else .ub

/-- The numbers in cells that are read to be used (legacy/tensor/RtensorPack.hpp:503, 610, 627). -/
def vals : List (Option α) → Res (List α)
  | [] => .ok []
  | none :: _ => .ub
  | some a :: l => do let t ← vals l; .ok (a :: t)

/-- The array of `std::max(n,1)` numbers of legacy/tensor/RtensorPack.hpp:209, 266. -/
def fresh (n : Nat) : Option (List (Option α)) := some (List.replicate (max n 1) none)

/-! ### The directory -/

/-- tensors/IntTensor.hpp:94-95 with legacy/tensor/RtensorPack.hpp:58-59: no rows, no array. -/
def Dir.empty (k : Nat) : Dir := ⟨k, [], 0⟩

/-- Reading all rows (tensors/IntTensor.hpp:183, 349). -/
def Dir.whole (d : Dir) : Res Unit := Res.need (d.rows.all (fun r => r.length = d.k))

/-- tensors/IntTensor.hpp:627-636 `push_back(c,x)` with `reserve0` (341-361). -/
def dirPush (d : Option Dir) (c : Nat) (x : List Nat) : Res (Option Dir) :=
  match d with
  | none => .throw
  | some d => do
    Res.assrt (d.k = x.length + 1)
    let row : List (Option Nat) := some c :: x.map some
    if d.cap ≤ d.rows.length + 1 then do
      d.whole
      .ok (some ⟨d.k, d.rows ++ [row], 2 * (d.rows.length + 1)⟩)
    else .ok (some ⟨d.k, d.rows ++ [row], d.cap⟩)

/-- tensors/IntTensor.hpp:177-189, copying: `memsize=strides[0]*dims[0]`, undefined for a directory without sizes. -/
def dirCopy (d : Option Dir) : Res Dir :=
  match d with
  | none => .ub
  | some d => do d.whole; .ok ⟨d.k, d.rows, d.rows.length⟩

/-- The sizes and the number of rows, `dims[0]` (legacy/tensor/RtensorPack.hpp:418-420): undefined for a directory without sizes. -/
def dirOf (p : TP α) : Res Dir :=
  match p.dir with
  | none => .ub
  | some d => .ok d

/-! ### Memory -/

/-- legacy/tensor/RtensorPack.hpp:205-216 `reserve(n)`. -/
def reserve (p : TP α) (n : Nat) : Res (TP α) :=
  if n ≤ p.memsize ∧ 0 < n then .ok p
  else
    match p.arr with
    | none => .ok { p with arr := fresh n, memsize := n }
    | some _ => do
      let l ← readN p.arr 0 p.memsize
      let a ← putN (fresh n) 0 l
      .ok { p with arr := a, memsize := n }

/-- legacy/tensor/RtensorPack.hpp:233-238: a new array, with the old cells. -/
def grow (p : TP α) (n : Nat) : Res (Option (List (Option α))) :=
  match p.arr with
  | none => .ok (fresh n)
  | some _ => do
    let l ← readN p.arr 0 p.memsize
    putN (fresh n) 0 l

/-- legacy/tensor/RtensorPack.hpp:230-241 `reserve_zero(n)`. -/
def reserveZero [Zero α] (p : TP α) (n : Nat) : Res (TP α) :=
  if n ≤ p.memsize then .ok p
  else do
    let a ← grow p n
    let a ← putN a p.memsize (List.replicate (n - p.memsize) (some 0))
    .ok { p with arr := a, memsize := n }

/-! ### Constructors -/

/-- legacy/tensor/RtensorPack.hpp:56. -/
def default : TP α := ⟨none, 0, 0, none⟩

/-- legacy/tensor/RtensorPack.hpp:58-59, for tensors with `nd` sizes. -/
def empty (nd : Nat) : TP α := ⟨none, 0, 0, some (Dir.empty (nd + 1))⟩

/-- The loops of legacy/tensor/RtensorPack.hpp:68-69, 79-80, 90-92, 102-104. -/
def pushAll (d : Option Dir) (N : Nat) (dims : List Nat) : Res (Option Dir) :=
  Res.forM (List.range N) d (fun d i => dirPush d (i * dims.prod) dims)

/-- legacy/tensor/RtensorPack.hpp:64-71, with `fill_raw`. -/
def rawN (N : Nat) (dims : List Nat) : Res (TP α) := do
  let p ← reserve (empty dims.length) (N * dims.prod)
  let d ← pushAll p.dir N dims
  .ok { p with dir := d, tail := N * dims.prod }

/-- legacy/tensor/RtensorPack.hpp:73-82, with `fill_zero`. -/
def zerosN [Zero α] (N : Nat) (dims : List Nat) : Res (TP α) := do
  let p ← reserve (empty dims.length) (N * dims.prod)
  let a ← putN p.arr 0 (List.replicate p.memsize (some 0))
  let d ← pushAll p.dir N dims
  .ok { p with arr := a, dir := d, tail := N * dims.prod }

/-- legacy/tensor/RtensorPack.hpp:84-107, with `fill_gaussian` or `fill_sequential`: `f i` is the number put into cell `i`. -/
def fillN (f : Nat → α) (N : Nat) (dims : List Nat) : Res (TP α) := do
  let p ← reserve (empty dims.length) (N * dims.prod)
  let a ← putN p.arr 0 ((List.range (N * dims.prod)).map (fun i => some (f i)))
  let d ← pushAll p.dir N dims
  .ok { p with arr := a, dir := d, tail := N * dims.prod }

/-- The loops of legacy/tensor/RtensorPack.hpp:129-134 and 327-331: a row for each list of sizes, from address `t` on. -/
def pushDims (d : Option Dir) (t : Nat) : List (List Nat) → Res (Option Dir × Nat)
  | [] => .ok (d, t)
  | v :: l => do
    let d ← dirPush d t v
    pushDims d (t + v.prod) l

/-- legacy/tensor/RtensorPack.hpp:109-135, zeros with the sizes of an `array_pool`.  Without sizes the directory is `IntTensor(Gdims({0,0}))`. -/
def ofPool [Zero α] (l : List (List Nat)) : Res (TP α) :=
  match l with
  | [] => do
    let p ← reserve default 0
    .ok { p with dir := some (Dir.empty 0) }
  | v :: _ => do
    let p : TP α := { default with dir := some (Dir.empty (v.length + 1)) }
    let n := (l.map List.prod).sum
    let p ← reserve p n
    let a ← putN p.arr 0 (List.replicate n (some 0))
    let (d, t) ← pushDims p.dir p.tail l
    .ok { p with arr := a, dir := d, tail := t }

/-- legacy/tensor/RtensorPack.hpp:141-148 `zeros_like(x)`; `new_zeros_like` (150-157) is the same. -/
def zerosLike [Zero α] (x : TP α) : Res (TP α) := do
  let d ← dirCopy x.dir
  let p ← reserve (⟨none, 0, 0, some d⟩ : TP α) x.tail
  let a ← putN p.arr 0 (List.replicate x.tail (some 0))
  .ok { p with arr := a, tail := x.tail }

/-- legacy/tensor/RtensorPack.hpp:159-166 `gaussian_like(x)`, `f i` the numbers drawn. -/
def fillLike (f : Nat → α) (x : TP α) : Res (TP α) := do
  let d ← dirCopy x.dir
  let p ← reserve (⟨none, 0, 0, some d⟩ : TP α) x.tail
  let a ← putN p.arr 0 ((List.range x.tail).map (fun i => some (f i)))
  .ok { p with arr := a, tail := x.tail }

/-! ### Copies -/

/-- legacy/tensor/RtensorPack.hpp:259-273, the copy constructor. -/
def copy (x : TP α) : Res (TP α) := do
  let d ← dirCopy x.dir
  let l ← readN x.arr 0 x.tail
  let a ← putN (fresh x.tail) 0 l
  .ok ⟨a, x.tail, x.tail, some d⟩

/-- legacy/tensor/RtensorPack.hpp:275-283, the move constructor (with tensors/IntTensor.hpp:242-249): the new pack, and what is left of `x`, whose directory keeps its sizes. -/
def move (x : TP α) : TP α × TP α :=
  (x, ⟨none, 0, 0, x.dir.map (fun d => ⟨d.k, d.rows.map (fun _ => []), 0⟩)⟩)

/-- legacy/tensor/RtensorPack.hpp:285-303, assignment from another pack `x`: `memsize` is at least one, and `memsize` cells are read. -/
def assign (x : TP α) : Res (TP α) := do
  let d ← dirCopy x.dir
  let l ← readN x.arr 0 (max x.tail 1)
  let a ← putN (fresh (max x.tail 1)) 0 l
  .ok ⟨a, max x.tail 1, x.tail, some d⟩

/-- legacy/tensor/RtensorPack.hpp:285-303, `x=x`, with tensors/IntTensor.hpp:251-270: both arrays are released, and the new ones copied to themselves. -/
def assignSelf (x : TP α) : Res (TP α) := do
  let d ← dirOf x
  .ok ⟨fresh (max x.tail 1), max x.tail 1, x.tail, some ⟨d.k, d.rows.map (fun _ => List.replicate d.k none), d.rows.length⟩⟩

/-! ### From a tensor -/

/-- legacy/tensor/RtensorPack.hpp:309-332, the tensor cut into tensors of the sizes in `l`. -/
def ofTensor (x : Ten α) (l : List (List Nat)) : Res (TP α) := do
  Res.assrt (0 < l.length)
  let a ← putN (fresh x.cells.length) 0 x.cells
  let v ← Res.get l 0
  let (d, t) ← pushDims (some (Dir.empty (v.length + 1))) 0 l
  Res.assrt (t = x.cells.length)
  .ok ⟨a, x.cells.length, x.cells.length, d⟩

/-- legacy/tensor/RtensorPack.hpp:334-352, from a temporary: a view is copied and assigned; otherwise the array is taken over, and the directory is made with three sizes. -/
def ofTensorMove (isView : Bool) (x : Ten α) (l : List (List Nat)) : Res (TP α) :=
  if isView then do
    let p ← ofTensor x l
    assign p
  else do
    Res.assrt (0 < l.length)
    let (d, t) ← pushDims none 0 l
    Res.assrt (t = x.cells.length)
    .ok ⟨some x.cells, x.cells.length, x.cells.length, d⟩

/-! ### Access -/

/-- legacy/tensor/RtensorPack.hpp:418-420 `size()`. -/
def size (p : TP α) : Res Nat := do let d ← dirOf p; .ok d.rows.length

/-- A row of the directory, read (tensors/IntTensor.hpp:593-599; no check of `i`). -/
def rowOf (p : TP α) (i : Nat) : Res (List (Option Nat)) := do
  let d ← dirOf p
  match d.rows[i]? with
  | none => .ub
  | some r => if r.length = d.k then .ok r else .ub

/-- legacy/tensor/RtensorPack.hpp:428-431 `addr_of(i)`. -/
def addrOf (p : TP α) (i : Nat) : Res Nat := do
  let r ← rowOf p i
  match r[0]? with
  | some (some a) => .ok a
  | _ => .ub

/-- legacy/tensor/RtensorPack.hpp:433-436 `dims_of(i)`. -/
def dimsOf (p : TP α) (i : Nat) : Res (List Nat) := do
  let r ← rowOf p i
  vals (r.drop 1)

/-- legacy/tensor/RtensorPack.hpp:438-441 `dim_of(i,j)`. -/
def dimOf (p : TP α) (i j : Nat) : Res Nat := do
  let r ← rowOf p i
  match r[1 + j]? with
  | some (some a) => .ok a
  | _ => .ub

/-- legacy/tensor/RtensorPack.hpp:449-452 `operator()(i)`, a copy of tensor `i`; what `view_of_tensor(i)` (454-462) shows. -/
def tensor (p : TP α) (i : Nat) : Res (Ten α) := do
  let dims ← dimsOf p i
  let a ← addrOf p i
  let l ← readN p.arr a dims.prod
  .ok ⟨dims, l⟩

/-- legacy/tensor/RtensorPack.hpp:469-475 `view1_of(i)`: the first cell, the sizes and the strides of the view. -/
def view1 (p : TP α) (i : Nat) : Res (Nat × List Nat × List Nat) := do
  let r ← rowOf p i
  let v ← vals r
  match v with
  | [a, n0] => .ok (a, [n0], [1])
  | _ => .throw

/-- legacy/tensor/RtensorPack.hpp:477-483 `view2_of(i)`. -/
def view2 (p : TP α) (i : Nat) : Res (Nat × List Nat × List Nat) := do
  let r ← rowOf p i
  let v ← vals r
  match v with
  | [a, n0, n1] => .ok (a, [n0, n1], [n1, 1])
  | _ => .throw

/-- legacy/tensor/RtensorPack.hpp:485-491 `view3_of(i)`. -/
def view3 (p : TP α) (i : Nat) : Res (Nat × List Nat × List Nat) := do
  let r ← rowOf p i
  let v ← vals r
  match v with
  | [a, n0, n1, n2] => .ok (a, [n0, n1, n2], [n1 * n2, n2, 1])
  | _ => .throw

/-- The comparisons of cells of legacy/tensor/RtensorPack.hpp:502-503 and tensors/IntTensor.hpp:584-585: the first difference decides, a cell not written is undefined. -/
def eqCells {β : Type} [DecidableEq β] : List (Option β) → List (Option β) → Res Bool
  | some a :: l, some b :: m => if a = b then eqCells l m else .ok false
  | [], [] => .ok true
  | _, _ => .ub

/-- tensors/IntTensor.hpp:581-587: the sizes, `memsize`, and all `memsize` cells. -/
def dirEq (d e : Dir) : Res Bool :=
  if ¬ (d.rows.length = e.rows.length ∧ d.k = e.k) then .ok false
  else if d.cap * d.k ≠ e.cap * e.k then .ok false
  else do
    d.whole
    e.whole
    eqCells (d.rows.flatten ++ List.replicate ((d.cap - d.rows.length) * d.k) none) (e.rows.flatten ++ List.replicate ((e.cap - e.rows.length) * e.k) none)

/-- legacy/tensor/RtensorPack.hpp:499-505 `operator==`. -/
def equal [DecidableEq α] (x y : TP α) : Res Bool := do
  let d ← dirOf x
  let e ← dirOf y
  let b ← dirEq d e
  if b = false then .ok false
  else if x.tail ≠ y.tail then .ok false
  else do
    let l ← readN x.arr 0 x.tail
    let m ← readN y.arr 0 x.tail
    eqCells l m

/-! ### Push back -/

/-- legacy/tensor/RtensorPack.hpp:523-524, 537-538, 545-546. -/
def room (p : TP α) (n : Nat) : Res (TP α) :=
  if p.memsize < p.tail + n then reserve p (max (2 * p.memsize) (p.tail + n)) else .ok p

/-- legacy/tensor/RtensorPack.hpp:521-533 `push_back(x)`, `x` a tensor with an array of its own. -/
def push (p : TP α) (x : Ten α) : Res (TP α) := do
  let p ← room p x.cells.length
  let a ← putN p.arr p.tail x.cells
  let d ← dirPush p.dir p.tail x.dims
  .ok { p with arr := a, dir := d, tail := p.tail + x.cells.length }

/-- legacy/tensor/RtensorPack.hpp:535-541 `push_back_raw(dims)`. -/
def pushRaw (p : TP α) (dims : List Nat) : Res (TP α) := do
  let p ← room p dims.prod
  let d ← dirPush p.dir p.tail dims
  .ok { p with dir := d, tail := p.tail + dims.prod }

/-- legacy/tensor/RtensorPack.hpp:543-555 `push_back_zero(dims)`. -/
def pushZero [Zero α] (p : TP α) (dims : List Nat) : Res (TP α) := do
  let p ← room p dims.prod
  let a ← putN p.arr p.tail (List.replicate dims.prod (some 0))
  let d ← dirPush p.dir p.tail dims
  .ok { p with arr := a, dir := d, tail := p.tail + dims.prod }

/-- legacy/tensor/RtensorPack.hpp:521-533, `push_back(p.view_of_tensor(i))`: the argument points into the array of the pack (459-462), which `reserve` (523-524) may have released before
it is read (526). -/
def pushOwn (p : TP α) (i : Nat) : Res (TP α) := do
  let x ← tensor p i
  if p.memsize < p.tail + x.cells.length then
    (if x.cells = [] then push p x else .ub)
  else push p x

/-! ### Arithmetic -/

/-- `stdadd` (include/Cnine_base_helpers.hpp:44-55) as called in legacy/tensor/RtensorPack.hpp:564, 574, 581: `n` cells of `b` from `o` on added to the first `n` of `a`. -/
def addCells (f : α → α → α) (a b : Option (List (Option α))) (o n : Nat) : Res (Option (List (Option α))) := do
  let l ← readN a 0 n
  let l ← vals l
  let m ← readN b o n
  let m ← vals m
  putN a 0 ((List.zipWith f l m).map some)

/-- legacy/tensor/RtensorPack.hpp:561-566 `add(x)`. -/
def add [Add α] (p x : TP α) : Res (TP α) := do
  Res.assrt (x.tail = p.tail)
  let a ← addCells (· + ·) p.arr x.arr 0 p.tail
  .ok { p with arr := a }

/-- legacy/tensor/RtensorPack.hpp:578-583 `add(x,c)`. -/
def addC [Add α] [Mul α] (p x : TP α) (c : α) : Res (TP α) := do
  Res.assrt (x.tail = p.tail)
  let a ← addCells (fun u v => u + c * v) p.arr x.arr 0 p.tail
  .ok { p with arr := a }

/-- legacy/tensor/RtensorPack.hpp:568-576 `add_subpack(x,offset)`. -/
def addSubpack [Add α] (p x : TP α) (offset : Nat) : Res (TP α) := do
  let n ← size x
  Res.assrt (offset ≤ n)
  if offset = n then .ok p
  else do
    let offs ← addrOf x offset
    Res.assrt (offs + p.tail ≤ x.tail)
    let a ← addCells (· + ·) p.arr x.arr offs p.tail
    .ok { p with arr := a }

/-- legacy/tensor/RtensorPack.hpp:605-612 `inp(y)`. -/
def inp [Zero α] [Add α] [Mul α] (x y : TP α) : Res α := do
  Res.assrt (x.tail = y.tail)
  let l ← readN x.arr 0 x.tail
  let l ← vals l
  let m ← readN y.arr 0 x.tail
  let m ← vals m
  .ok ((List.zipWith (· * ·) l m).foldl (· + ·) 0)

/-- legacy/tensor/RtensorPack.hpp:622-629 `diff2(y)`. -/
def diff2 [Zero α] [Add α] [Sub α] [Mul α] (x y : TP α) : Res α := do
  Res.assrt (x.tail = y.tail)
  let l ← readN x.arr 0 x.tail
  let l ← vals l
  let m ← readN y.arr 0 x.tail
  let m ← vals m
  .ok ((List.zipWith (fun a b => (a - b) * (a - b)) l m).foldl (· + ·) 0)

/-! ### Concatenation -/

/-- The first `n` rows of `k` cells of an array (tensors/IntTensor.hpp:593-599). -/
def chunk {β : Type} (k : Nat) : Nat → List β → List (List β)
  | 0, _ => []
  | n + 1, l => l.take k :: chunk k n (l.drop k)

/-- tensors/IntTensor.hpp:396-420 `cat(list)` of directories: the row length is the one of the first; the cells of all are copied one after the other, without a check that they fit. -/
def dirCat (l : List Dir) : Res Dir := do
  Res.assrt (0 < l.length)
  let d ← Res.get l 0
  let t := (l.map (fun d => d.rows.length)).sum
  let cells ← Res.forM l [] (fun c d => do d.whole; .ok (c ++ d.rows.flatten))
  if cells.length ≤ t * d.k then
    .ok ⟨d.k, chunk d.k t (cells ++ List.replicate (t * d.k - cells.length) none), t⟩
  else .ub

/-- legacy/tensor/RtensorPack.hpp:184: `R.dir.set(a+i,0,R.dir(a+i,0)+offs)`. -/
def shiftRow (o : Nat) : List (Option Nat) → Res (List (Option Nat))
  | some a :: r => .ok (some (a + o) :: r)
  | _ => .ub

/-- The loop of legacy/tensor/RtensorPack.hpp:183-184. -/
def shiftRows (o : Nat) : List (List (Option Nat)) → Res (List (List (Option Nat)))
  | [] => .ok []
  | r :: l => do
    let r ← shiftRow o r
    let l ← shiftRows o l
    .ok (r :: l)

/-- The loop of legacy/tensor/RtensorPack.hpp:181-187. -/
def shiftAll (o : Nat) : List (Nat × Nat) → List (List (Option Nat)) → Res (List (List (Option Nat)))
  | [], _ => .ok []
  | (n, tail) :: ps, rows => do
    let h ← shiftRows o (rows.take n)
    let t ← shiftAll (o + tail) ps (rows.drop n)
    .ok (h ++ t)

/-- legacy/tensor/RtensorPack.hpp:168-199 `cat(list)`. -/
def cat (l : List (TP α)) : Res (TP α) := do
  let ds ← Res.forM l [] (fun c p => do let d ← dirOf p; .ok (c ++ [d]))
  let d ← dirCat ds
  let rows ← shiftAll 0 (List.zipWith (fun (d : Dir) (p : TP α) => (d.rows.length, p.tail)) ds l) d.rows
  let R ← reserve (⟨none, 0, 0, some { d with rows := rows }⟩ : TP α) (l.map TP.tail).sum
  Res.forM l R (fun R p => do
    let c ← readN p.arr 0 p.tail
    let a ← putN R.arr R.tail c
    .ok { R with arr := a, tail := R.tail + p.tail })

end TPk
end Cnine
