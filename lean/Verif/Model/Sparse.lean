import Verif.Model.Pool
import Verif.Model.OMap

/-!
# Model of the sparse matrices

matrices/SparseRmatrix.hpp and matrices/CSRmatrix.hpp.  Host memory only, `int` unbounded.  The element type `float`
is an arbitrary type with zero and decidable equality (no NaN).
-/

namespace Cnine

/-! ## matrices/SparseRmatrix.hpp -/

/-- matrices/SparseRmatrix.hpp:31-40: `SparseVec`, a map from columns to values; its field `n` is never used by the
operations modelled here. -/
abbrev SpVec (α : Type _) := OMap Int α

/-- matrices/SparseRmatrix.hpp:98-100: `n`, `m`, `lists`.  The rows are held by pointer; each belongs to one matrix
(copying allocates new ones, 126-133), so the model holds them by value. -/
structure SpMat (α : Type _) where
  n : Int
  m : Int
  lists : OMap Int (SpVec α)
  deriving Repr, DecidableEq

namespace SpVec

variable {α : Type _} [DecidableEq α]

/-- matrices/SparseRmatrix.hpp:46-53: `SparseVec::operator==`. -/
def eq (x y : SpVec α) : Bool := x.all fun p => decide (OMap.find? p.1 y = some p.2)

end SpVec

namespace SpMat

variable {α : Type _}

/-- matrices/SparseRmatrix.hpp:119-120. -/
def new (n m : Int) : SpMat α := ⟨n, m, []⟩

/-- matrices/SparseRmatrix.hpp:265-276 with 63-65: `set(i,j,v)`. -/
def set (x : SpMat α) (i j : Int) (v : α) : Res (SpMat α) := do
  Res.assrt (i < x.n)
  Res.assrt (j < x.m)
  Res.ok { x with lists := OMap.set i (OMap.set j v ((OMap.find? i x.lists).getD [])) x.lists }

/-- matrices/SparseRmatrix.hpp:292-297: `conditional_rowp(i)`. -/
def rowp (x : SpMat α) (i : Int) : Res (Option (SpVec α)) := do
  Res.assrt (i < x.n)
  Res.ok (OMap.find? i x.lists)

/-- matrices/SparseRmatrix.hpp:278-283 and 285-290 (the const version): `row(i)`, with the matrix afterwards. -/
def row (x : SpMat α) (i : Int) : Res (SpMat α × SpVec α) := do
  Res.assrt (i < x.n)
  match OMap.find? i x.lists with
  | some r => Res.ok (x, r)
  | none => Res.ok ({ x with lists := OMap.set i [] x.lists }, [])

/-- matrices/SparseRmatrix.hpp:257-263: the value of an absent entry is 0. -/
def entryOf [Zero α] (j : Int) : Option (SpVec α) → α
  | none => 0
  | some r => (OMap.find? j r).getD 0

/-- matrices/SparseRmatrix.hpp:257-263: `operator()(i,j)`. -/
def get [Zero α] (x : SpMat α) (i j : Int) : Res α := do
  let r ← x.rowp i
  Res.ok (entryOf j r)

/-- matrices/SparseRmatrix.hpp:307-313 with 67-70: `forall_nonzero`, as the list of arguments of the lambda. -/
def entries (x : SpMat α) : List (Int × Int × α) :=
  x.lists.flatMap fun p => p.2.map fun q => (p.1, q.1, q.2)

/-- matrices/SparseRmatrix.hpp:250-255: `size()`. -/
def size (x : SpMat α) : Nat := (x.lists.map fun p => p.2.length).sum

/-- matrices/SparseRmatrix.hpp:336 (= 170-171, 195-197): repeated `set`. -/
def setAll : List (Int × Int × α) → SpMat α → Res (SpMat α)
  | [], x => .ok x
  | e :: l, x => x.set e.1 e.2.1 e.2.2 >>= fun x => setAll l x

/-- matrices/SparseRmatrix.hpp:334-338: `transp()`. -/
def transp (x : SpMat α) : Res (SpMat α) :=
  setAll (x.entries.map fun e => (e.2.1, e.1, e.2.2)) (new x.m x.n)

/-- matrices/SparseRmatrix.hpp:161-173: `from_list(M)`, `M` given by its rows. -/
def fromList (one : α) (M : List (Int × Int)) : Res (SpMat α) :=
  setAll (M.map fun p => (p.1, p.2, one))
    (new (M.foldl (fun n p => max p.1 n) 0) (M.foldl (fun m p => max p.2 m) 0))

/-- The indices (i,j), i<n, j<m in the order of the loops matrices/SparseRmatrix.hpp:195-196 (= 180-181). -/
def grid (n m : Nat) : List (Nat × Nat) := (List.range n).flatMap fun i => (List.range m).map fun j => (i, j)

/-- matrices/SparseRmatrix.hpp:190-198 (`keep v` is `v!=0`) and 175-184 (`keep v` is `v>0`): constructors from dense
matrices, `x i j` being the elements. -/
def ofDense (keep : α → Bool) (n m : Nat) (x : Nat → Nat → α) : Res (SpMat α) :=
  setAll (((grid n m).filter fun p => keep (x p.1 p.2)).map fun (p : Nat × Nat) => ((p.1 : Int), (p.2 : Int), x p.1 p.2)) (new n m)

/-- matrices/SparseRmatrix.hpp:211-212 (= matrices/CSRmatrix.hpp:136-138): the stores into a row-major `n×m` tensor. -/
def store (m : Int) : List (Int × Int × α) → Arr α → Res (Arr α)
  | [], a => .ok a
  | e :: l, a => a.wr (m * e.1 + e.2.1) e.2.2 >>= fun a => store m l a

/-- A row-major `n×m` tensor filled with zeros (tensors/TensorView.hpp:144-155). -/
def zeros [Zero α] (n m : Int) : Arr α := List.replicate (n * m).toNat (some 0)

/-- matrices/SparseRmatrix.hpp:209-214: `dense()`, as the memory of the result. -/
def dense [Zero α] (x : SpMat α) : Res (Arr α) := store x.m x.entries (zeros x.n x.m)

/-- matrices/SparseRmatrix.hpp:227-236: `operator==`.  `*p.second!=*it->second` compares the rows with `operator!=` of
`std::map`: the code is compiled as C++17 (common.txt:45, setup.py:66) and `SparseVec` declares only `operator==`. -/
def eq [DecidableEq α] (x y : SpMat α) : Bool :=
  decide (x.n = y.n) && decide (x.m = y.m) && decide (x.lists.length = y.lists.length) &&
  x.lists.all fun p => decide (OMap.find? p.1 y.lists = some p.2)

end SpMat

/-! ## matrices/CSRmatrix.hpp -/

/-- A cell of the array of a CSR matrix (matrices/CSRmatrix.hpp:125-126): an `int` or a `TYPE` stored in it. -/
inductive CCell (α : Type _) where
  | ix (i : Int)
  | val (v : α)
  deriving Repr, DecidableEq

/-- How `TYPE` (`float`) and `int` are reinterpreted and converted into each other. -/
structure Pun (α : Type _) where
  bits : α → Int
  ofBits : Int → α
  ofInt : Int → α

/-- `*reinterpret_cast<int*>(arr+k)` (e.g. matrices/CSRmatrix.hpp:198). -/
def CCell.asInt {α} (P : Pun α) : CCell α → Int
  | .ix i => i
  | .val v => P.bits v

/-- `arr[k]` (e.g. matrices/CSRmatrix.hpp:199). -/
def CCell.asVal {α} (P : Pun α) : CCell α → α
  | .ix i => P.ofBits i
  | .val v => v

/-- matrices/CSRmatrix.hpp:28-49: the pool and the shape.  The cached transpose is returned by `makeTransp`. -/
structure CSR (α : Type _) where
  pool : Pool (CCell α)
  n : Int
  m : Int
  deriving Repr, DecidableEq

/-- tensors/IntTensor.hpp:363-369: `resize0(n)`. -/
def Dir.resize0 (d : Dir) (n : Int) : Res Dir := do
  Res.assrt (d.n ≤ n)
  let d ← if n > d.capacity0 then d.reserve0 n else .ok d
  Res.ok { d with n := n }

namespace CSR

variable {α : Type _}

/-- The two cells of an entry (matrices/CSRmatrix.hpp:125-126). -/
def pair (e : Int × α) : List (CCell α) := [.ix e.1, .val e.2]

/-- matrices/SparseRmatrix.hpp:350-364: the loop of `csrmatrix()` over the rows `i`, …, `i+k-1`; `tail` is `t`. -/
def rowsLoop (x : SpMat α) (i : Int) : Nat → Pool (CCell α) → Res (Pool (CCell α))
  | 0, p => .ok p
  | k + 1, p => do
    let d ← p.dir.set i 0 p.tail
    let v := (OMap.find? i x.lists).getD []
    let d ← d.set i 1 (2 * v.length)
    let a ← p.arr.wrList p.tail (v.flatMap pair)
    rowsLoop x (i + 1) k { p with dir := d, arr := a, tail := p.tail + 2 * v.length }

/-- matrices/SparseRmatrix.hpp:341-367: `csrmatrix()`. -/
def ofSparse (x : SpMat α) : Res (CSR α) := do
  let d ← (Pool.empty : Pool (CCell α)).dir.resize0 x.n
  let p ← ({ (Pool.empty : Pool (CCell α)) with dir := d }).reserve (2 * x.size)
  let p ← rowsLoop x 0 x.n.toNat p
  Res.ok ⟨p, 0, 0⟩

/-- The nonzero entries of row `i` of a dense matrix (matrices/CSRmatrix.hpp:122-128). -/
def denseRow [Zero α] [DecidableEq α] (m : Nat) (x : Nat → Nat → α) (i : Nat) : List (Int × α) :=
  ((List.range m).filter fun j => x i j ≠ 0).map fun (j : Nat) => ((j : Int), x i j)

/-- matrices/CSRmatrix.hpp:120-131: the loop over rows. -/
def denseLoop [Zero α] [DecidableEq α] (m : Nat) (x : Nat → Nat → α) (i : Nat) : Nat → Pool (CCell α) → Res (Pool (CCell α))
  | 0, p => .ok p
  | k + 1, p => do
    let d ← p.dir.set i 0 p.tail
    let v := denseRow m x i
    let a ← p.arr.wrList p.tail (v.flatMap pair)
    let d ← d.set i 1 (2 * v.length)
    denseLoop m x (i + 1) k { p with dir := d, arr := a, tail := p.tail + 2 * v.length }

/-- matrices/CSRmatrix.hpp:109-132: constructor from a dense matrix with elements `x i j`. -/
def ofDense [Zero α] [DecidableEq α] (n m : Nat) (x : Nat → Nat → α) : Res (CSR α) := do
  let p : Pool (CCell α) := Pool.ofSize n
  let d ← p.dir.resize0 n
  let p ← ({ p with dir := d }).reserve (2 * ((SpMat.grid n m).filter fun (q : Nat × Nat) => x q.1 q.2 ≠ 0).length)
  let p ← denseLoop m x 0 n { p with tail := 0 }
  Res.ok ⟨p, n, m⟩

/-- matrices/CSRmatrix.hpp:180-183: `size_of(i)`. -/
def sizeOf (c : CSR α) (i : Int) : Res Int := do
  let s ← c.pool.sizeOf i
  Res.ok (s.tdiv 2)

/-- matrices/CSRmatrix.hpp:226-227 (`i` omitted): `k` entries from the address `a` on. -/
def readPairs (P : Pun α) (arr : Arr (CCell α)) (a : Int) : Nat → Res (List (Int × α))
  | 0 => .ok []
  | k + 1 => do
    let j ← arr.rd a
    let v ← arr.rd (a + 1)
    let l ← readPairs P arr (a + 2) k
    Res.ok ((j.asInt P, v.asVal P) :: l)

/-- matrices/CSRmatrix.hpp:223-228: rows `i`, …, `i+k-1`. -/
def entriesFrom (P : Pun α) (c : CSR α) (i : Int) : Nat → Res (List (Int × Int × α))
  | 0 => .ok []
  | k + 1 => do
    let len ← c.sizeOf i
    let offs ← c.pool.offset i
    let l ← readPairs P c.pool.arr offs len.toNat
    let r ← entriesFrom P c (i + 1) k
    Res.ok (l.map (fun q => (i, q.1, q.2)) ++ r)

/-- matrices/CSRmatrix.hpp:217-229: `for_each`, as the list of arguments of the lambda. -/
def entries (P : Pun α) (c : CSR α) : Res (List (Int × Int × α)) := entriesFrom P c 0 c.pool.size.toNat

/-- matrices/CSRmatrix.hpp:134-140: conversion to a dense tensor, as its memory. -/
def dense [Zero α] (P : Pun α) (c : CSR α) : Res (Arr α) := do
  let es ← c.entries P
  SpMat.store c.m es (SpMat.zeros c.n c.m)

/-- matrices/CSRmatrix.hpp:197-199: the search, `k` rounds from address `a` on. -/
def scan (P : Pun α) (arr : Arr (CCell α)) (j a : Int) : Nat → Res α
  | 0 => .throw
  | k + 1 => do
    let c ← arr.rd a
    if c.asInt P = j then do
      let v ← arr.rd (a + 1)
      Res.ok (v.asVal P)
    else scan P arr j (a + 2) k

/-- matrices/CSRmatrix.hpp:191-201: `operator()(i,j)`. -/
def get (P : Pun α) (c : CSR α) (i j : Int) : Res α := do
  Res.assrt (i < c.pool.size)
  let offs ← c.pool.dir.at' i 0
  let s ← c.pool.dir.at' i 1
  scan P c.pool.arr j offs s.toNat

/-- matrices/CSRmatrix.hpp:203-209: `set_at(i,k,j,v)`. -/
def setAt (c : CSR α) (i k j : Int) (v : α) : Res (CSR α) := do
  let offs ← c.pool.offset i
  let a ← c.pool.arr.wr (offs + 2 * k) (.ix j)
  let a ← a.wr (offs + 2 * k + 1) (.val v)
  Res.ok { c with pool := { c.pool with arr := a } }

/-- matrices/CSRmatrix.hpp:236-247: `push_back(ix,v)`; the column numbers are stored as values of `TYPE`. -/
def pushBack (P : Pun α) (c : CSR α) (ix : List Int) (v : List α) : Res (CSR α) := do
  Res.assrt (decide (v.length = ix.length))
  let p ← c.pool.grow (2 * ix.length)
  let a ← p.arr.wrList p.tail ((ix.zip v).flatMap fun e => [.val (P.ofInt e.1), .val e.2])
  let d ← p.dir.pushBack p.tail (2 * ix.length)
  Res.ok { c with pool := { p with arr := a, dir := d, tail := p.tail + 2 * ix.length } }

/-- `len[j]++` for a `vector<int>` (matrices/CSRmatrix.hpp:274,288). -/
def bump (len : List Int) (j : Int) : Res (List Int) :=
  if j < 0 then .ub else
  match len[j.toNat]? with
  | some v => .ok (len.set j.toNat (v + 1))
  | none => .ub

/-- matrices/CSRmatrix.hpp:273-274. -/
def countCols : List (Int × Int × α) → List Int → Res (List Int)
  | [], len => .ok len
  | e :: l, len => bump len e.2.1 >>= fun len => countCols l len

/-- matrices/CSRmatrix.hpp:277-281: the directory of the transpose, from row `i` on. -/
def layout (i : Int) : List Int → Pool (CCell α) → Res (Pool (CCell α))
  | [], p => .ok p
  | l :: len, p => do
    let d ← p.dir.set i 0 p.tail
    let d ← d.set i 1 (2 * l)
    layout (i + 1) len { p with dir := d, tail := p.tail + 2 * l }

/-- matrices/CSRmatrix.hpp:284-289. -/
def place : List (Int × Int × α) → List Int → Pool (CCell α) → Res (Pool (CCell α))
  | [], _, p => .ok p
  | e :: l, len, p => do
    let offs ← p.offset e.2.1
    let k ← Res.get len e.2.1.toNat
    let a ← p.arr.wr (offs + 2 * k) (.ix e.1)
    let a ← a.wr (offs + 2 * k + 1) (.val e.2.2)
    let len ← bump len e.2.1
    place l len { p with arr := a }

/-- matrices/CSRmatrix.hpp:266-290: `make_transp()`, returning the new matrix; `vector<int> len(m,0)` throws for
negative `m`. -/
def makeTransp (P : Pun α) (c : CSR α) : Res (CSR α) := do
  let p ← (Pool.ofSize c.m : Pool (CCell α)).reserve c.pool.tail
  Res.assrt (0 ≤ c.m)
  let es ← c.entries P
  let len ← countCols es (List.replicate c.m.toNat 0)
  let p ← layout 0 len { p with tail := 0 }
  let p ← place es (List.replicate c.m.toNat 0) p
  Res.ok ⟨p, c.m, c.n⟩

/-- matrices/CSRmatrix.hpp:261-263: `transp()`, with the cached transpose `transpp` (nullptr is `none`) before and after. -/
def transp (P : Pun α) (c : CSR α) : Option (CSR α) → Res (CSR α × Option (CSR α))
  | some t => .ok (t, some t)
  | none => makeTransp P c >>= fun t => .ok (t, some t)

end CSR

end Cnine
