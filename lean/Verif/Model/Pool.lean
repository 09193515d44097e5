import Verif.Model.Basic

/-!
# Model of the container pools

containers/array_pool.hpp, containers/hlists.hpp, containers/int_pool.hpp, containers/auto_array.hpp and
the part of tensors/IntTensor.hpp that holds the pools' directory.

Host memory only (`dev==0`, no views).  `int` is unbounded.  A
block of memory is a list of cells, `none`
for a cell that was never written; reading such a cell is undefined behaviour, copying it with `std::copy`
copies its state.  A null pointer is the empty block.
-/

namespace Cnine

/-- A block obtained with `new TYPE[n]`. -/
abbrev Arr (α : Type _) := List (Option α)

namespace Arr

/-- `new TYPE[std::max(n,1)]` (e.g. containers/array_pool.hpp:92,108,201). -/
def alloc {α} (n : Int) : Arr α := List.replicate (max n 1).toNat none

/-- `arr[i]` as an rvalue. -/
def rd {α} (a : Arr α) (i : Int) : Res α :=
  if i < 0 then .ub else
  match a[i.toNat]? with
  | some (some v) => .ok v
  | _ => .ub

/-- `arr[i]=v`. -/
def wr {α} (a : Arr α) (i : Int) (v : α) : Res (Arr α) :=
  if i < 0 then .ub else
  if i.toNat < a.length then .ok (a.set i.toNat (some v)) else .ub

/-- `std::copy(src,src+n,dst+off)` for blocks that do not overlap. -/
def copy {α} (src : Arr α) (n : Int) (dst : Arr α) (off : Int) : Res (Arr α) :=
  if n < 0 ∨ off < 0 then .ub else
  if n.toNat ≤ src.length ∧ off.toNat + n.toNat ≤ dst.length then
    .ok (dst.take off.toNat ++ (src.take n.toNat ++ dst.drop (off.toNat + n.toNat)))
  else .ub

/-- `for(int i=0; i<v.size(); i++) arr[off+i]=v[i];` (containers/array_pool.hpp:505-506,528-532,
containers/hlists.hpp:72-73,195-196). -/
def wrList {α} (a : Arr α) (off : Int) : List α → Res (Arr α)
  | [] => .ok a
  | v :: l => a.wr off v >>= fun a => wrList a (off + 1) l

/-- `for(int i=0; i<len; i++) R[i]=arr[addr+i];` (containers/array_pool.hpp:485-486,
containers/hlists.hpp:140-141). -/
def rdList {α} (a : Arr α) (addr : Int) : Nat → Res (List α)
  | 0 => .ok []
  | n + 1 => a.rd addr >>= fun v => rdList a (addr + 1) n >>= fun l => .ok (v :: l)

end Arr

/-- tensors/IntTensor.hpp:41-46 for a tensor of dimensions `{n,2}`, hence strides `{2,1}`. -/
structure Dir where
  n : Int
  memsize : Int
  arr : Arr Int
  deriving Repr, DecidableEq

namespace Dir

/-- tensors/IntTensor.hpp:94-95: the constructor with `fill_noalloc`. -/
def noalloc (n : Int) : Dir := ⟨n, 0, []⟩

/-- tensors/IntTensor.hpp:73-88: the constructor from dimensions; the memory is not initialised. -/
def raw (n : Int) : Dir := ⟨n, 2 * n, Arr.alloc (2 * n)⟩

/-- tensors/IntTensor.hpp:494-498: `operator()(i0,i1)`, without `CNINE_RANGE_CHECKING`. -/
def at' (d : Dir) (i j : Int) : Res Int := d.arr.rd (2 * i + j)

/-- tensors/IntTensor.hpp:569-573: `set(i0,i1,x)`, without `CNINE_RANGE_CHECKING`. -/
def set (d : Dir) (i j x : Int) : Res Dir :=
  d.arr.wr (2 * i + j) x >>= fun a => .ok { d with arr := a }

/-- tensors/IntTensor.hpp:337-339: `capacity0()`. -/
def capacity0 (d : Dir) : Int := Int.tdiv d.memsize 2

/-- tensors/IntTensor.hpp:341-361: `reserve0(n)`. -/
def reserve0 (d : Dir) (m : Int) : Res Dir :=
  if m ≤ d.capacity0 then .ok d else
  let ms := if m * 2 = 0 then 1 else m * 2
  d.arr.copy (2 * d.n) (Arr.alloc ms) 0 >>= fun a => .ok { d with memsize := ms, arr := a }

/-- tensors/IntTensor.hpp:638-646: `push_back(c0,c1)`. -/
def pushBack (d : Dir) (c0 c1 : Int) : Res Dir :=
  let row := d.n
  (if d.capacity0 ≤ row + 1 then d.reserve0 (2 * (row + 1)) else .ok d) >>= fun d =>
  let d := { d with n := d.n + 1 }
  d.set row 0 c0 >>= fun d => d.set row 1 c1

/-- tensors/IntTensor.hpp:251-270: copy assignment. -/
def copy (x : Dir) : Res Dir :=
  x.arr.copy (2 * x.n) (Arr.alloc (2 * x.n)) 0 >>= fun a => .ok ⟨x.n, 2 * x.n, a⟩

end Dir

/-- containers/array_pool.hpp:45-58: the host fields `arr`, `memsize`, `tail`, `dir`. -/
structure Pool (α : Type _) where
  arr : Arr α
  memsize : Int
  tail : Int
  dir : Dir
  deriving Repr, DecidableEq

namespace Pool

variable {α : Type _}

/-- containers/array_pool.hpp:77-78: default constructor. -/
def empty : Pool α := ⟨[], 0, 0, Dir.noalloc 0⟩

/-- containers/array_pool.hpp:80-81: `array_pool(n)`; the directory is not initialised. -/
def ofSize (n : Int) : Pool α := ⟨[], 0, 0, Dir.raw n⟩

/-- containers/array_pool.hpp:88-91: the loop filling the directory, `i` rows done so far. -/
def fillDir (m : Int) (i : Int) : Nat → Dir → Res Dir
  | 0, d => .ok d
  | k + 1, d => d.set i 0 (i * m) >>= fun d => d.set i 1 m >>= fun d => fillDir m (i + 1) k d

/-- containers/array_pool.hpp:83-94: `array_pool(n,m)`. -/
def ofShape (n m : Int) : Res (Pool α) :=
  fillDir m 0 n.toNat (Dir.raw n) >>= fun d => .ok ⟨Arr.alloc (n * m), n * m, n * m, d⟩

/-- containers/array_pool.hpp:103-110: `array_pool(n,_total,fill_reserve())`. -/
def reserved (n total : Int) : Pool α := ⟨Arr.alloc total, total, 0, Dir.raw n⟩

/-- containers/array_pool.hpp:197-208: `reserve(n)`.  `if(arr)` guards the copy from a null pointer. -/
def reserve (p : Pool α) (n : Int) : Res (Pool α) :=
  if n ≤ p.memsize then .ok p else
  (if p.arr = [] then .ok (Arr.alloc n) else p.arr.copy p.memsize (Arr.alloc n) 0) >>= fun a =>
    .ok { p with arr := a, memsize := n }

/-- containers/array_pool.hpp:495-496 (= 503-504, 526-527): growth before an append. -/
def grow (p : Pool α) (len : Int) : Res (Pool α) :=
  if p.tail + len > p.memsize then p.reserve (max (2 * p.memsize) (p.tail + len)) else .ok p

/-- containers/array_pool.hpp:427-429: `size()`. -/
def size (p : Pool α) : Int := p.dir.n

/-- containers/array_pool.hpp:431-433: `total()`. -/
def total (p : Pool α) : Int := p.tail

/-- containers/array_pool.hpp:452-455: `offset(i)`. -/
def offset (p : Pool α) (i : Int) : Res Int := do
  Res.assrt (i < p.size)
  p.dir.at' i 0

/-- containers/array_pool.hpp:457-460: `size_of(i)`. -/
def sizeOf (p : Pool α) (i : Int) : Res Int := do
  Res.assrt (i < p.size)
  p.dir.at' i 1

/-- containers/array_pool.hpp:462-466: `max_size_of(i)`. -/
def maxSizeOf (p : Pool α) (i : Int) : Res Int := do
  Res.assrt (i < p.size)
  if i < p.size - 1 then do
    let a ← p.dir.at' (i + 1) 0
    let b ← p.dir.at' i 0
    Res.ok (a - b)
  else do
    let b ← p.dir.at' i 0
    Res.ok (p.tail - b)

/-- containers/array_pool.hpp:468-472: `operator()(i,j)`. -/
def get (p : Pool α) (i j : Int) : Res α := do
  Res.assrt (i < p.size)
  let len ← p.dir.at' i 1
  Res.assrt (j < len)
  let o ← p.dir.at' i 0
  p.arr.rd (o + j)

/-- containers/array_pool.hpp:474-478: `set(i,j,v)`. -/
def set (p : Pool α) (i j : Int) (v : α) : Res (Pool α) := do
  Res.assrt (i < p.size)
  let len ← p.dir.at' i 1
  Res.assrt (j < len)
  let o ← p.dir.at' i 0
  let a ← p.arr.wr (o + j) v
  Res.ok { p with arr := a }

/-- containers/array_pool.hpp:480-488: `operator()(i)`; `vector<TYPE> R(len)` throws for negative `len`. -/
def list (p : Pool α) (i : Int) : Res (List α) := do
  Res.assrt (i < p.size)
  let addr ← p.dir.at' i 0
  let len ← p.dir.at' i 1
  Res.assrt (0 ≤ len)
  p.arr.rdList addr len.toNat

/-- containers/array_pool.hpp:494-499: `push_back(len)`. -/
def pushLen (p : Pool α) (len : Int) : Res (Pool α) := do
  let p ← p.grow len
  let d ← p.dir.pushBack p.tail len
  Res.ok { p with dir := d, tail := p.tail + len }

/-- containers/array_pool.hpp:501-509: `push_back(vector)`; also 537-539 (initializer list) and 524-535
(`std::set`, `v` being its elements in increasing order). -/
def pushVec (p : Pool α) (v : List α) : Res (Pool α) := do
  let p ← p.grow v.length
  let a ← p.arr.wrList p.tail v
  let d ← p.dir.pushBack p.tail v.length
  Res.ok { p with arr := a, dir := d, tail := p.tail + v.length }

/-- containers/array_pool.hpp:541-546: `push_back(i,v)`, which appends to list `i`. -/
def append (p : Pool α) (i : Int) (v : α) : Res (Pool α) := do
  Res.assrt (i < p.size)
  let s ← p.sizeOf i
  let m ← p.maxSizeOf i
  Res.assrt (s < m)
  let o ← p.dir.at' i 0
  let len ← p.dir.at' i 1
  let a ← p.arr.wr (o + len) v
  let d ← p.dir.set i 1 (len + 1)
  Res.ok { p with arr := a, dir := d }

/-- containers/array_pool.hpp:225-238 (copy constructor), 251-280 (copy assignment). -/
def copy (x : Pool α) : Res (Pool α) := do
  let a ← x.arr.copy x.tail (Arr.alloc x.tail) 0
  let d ← x.dir.copy
  Res.ok ⟨a, x.tail, x.tail, d⟩

/-- containers/array_pool.hpp:177-180: directory entries of one pool in `cat`. -/
def catDir (x : Pool α) (a tail : Int) (i : Int) : Nat → Dir → Res Dir
  | 0, d => .ok d
  | k + 1, d => do
    let o ← x.dir.at' i 0
    let d ← d.set (a + i) 0 (tail + o)
    let l ← x.dir.at' i 1
    let d ← d.set (a + i) 1 l
    catDir x a tail (i + 1) k d

/-- containers/array_pool.hpp:173-189: the loop of `cat` over the pools; `a` counts the lists so far. -/
def catLoop (a : Int) : List (Pool α) → Pool α → Res (Pool α)
  | [], r => .ok r
  | x :: l, r => do
    let d ← catDir x a r.tail 0 x.size.toNat r.dir
    let arr ← x.arr.copy x.tail r.arr r.tail
    catLoop (a + x.size) l { r with dir := d, arr := arr, tail := r.tail + x.tail }

/-- containers/array_pool.hpp:163-191: `cat`. -/
def cat (l : List (Pool α)) : Res (Pool α) := do
  let r ← (ofSize (l.map size).sum).reserve (l.map (·.tail)).sum
  catLoop 0 l r

/-- containers/array_pool.hpp:342-343: the offsets written by `to_tensor`. -/
def headerLoop (p : Pool Int) (n : Int) (i : Int) : Nat → Arr Int → Res (Arr Int)
  | 0, r => .ok r
  | k + 1, r => do
    let o ← p.offset i
    let r ← r.wr (i + 1) (n + 2 + o)
    headerLoop p n (i + 1) k r

/-- containers/array_pool.hpp:337-348: `to_tensor()`; the result is the memory of the one dimensional
tensor.  `Ltensor<int> R({N+tail+2})` is not initialised. -/
def toTensor (p : Pool Int) : Res (Arr Int) := do
  let n := p.size
  let r : Arr Int := Arr.alloc (n + p.tail + 2)
  let r ← r.wr 0 n
  let r ← headerLoop p n 0 n.toNat r
  let r ← r.wr (n + 1) (p.tail + n + 2)
  p.arr.copy p.tail r (n + 2)

end Pool

/-! ## containers/hlists.hpp

An `hlists` is an `array_pool` whose lists start with a head.  The accessors return `int`; the model has
`TYPE=int`-like semantics, that is no conversion. -/

namespace HL

variable {α : Type _}

/-- containers/hlists.hpp:44-49 and 56-61: the loop of the two constructors from heads and lengths;
`full` tells them apart (46 against 58).  `lengths[i]` is taken from the same list as `heads[i]`. -/
def fill (full : Bool) (i : Int) : List (α × Int) → Pool α → Res (Pool α)
  | [], p => .ok p
  | (h, len) :: l, p => do
    let d ← p.dir.set i 0 p.tail
    let d ← d.set i 1 (if full then len + 1 else 1)
    let a ← p.arr.wr p.tail h
    fill full (i + 1) l { p with dir := d, arr := a, tail := p.tail + (len + 1) }

/-- containers/hlists.hpp:40-50 (`full`) and 52-62 (`fill_noalloc`, not `full`). -/
def ofLengths (full : Bool) (heads : List α) (lengths : List Int) : Res (Pool α) := do
  let p := Pool.reserved lengths.length (lengths.sum + lengths.length)
  Res.assrt (decide (heads.length = lengths.length))
  fill full 0 (heads.zip lengths) p

/-- containers/hlists.hpp:66-76: the loop over a map of lists, in the order of its keys. -/
def fillMap (i : Int) : List (α × List α) → Pool α → Res (Pool α)
  | [], p => .ok p
  | (h, v) :: l, p => do
    let d ← p.dir.set i 0 p.tail
    let d ← d.set i 1 (v.length + 1)
    let a ← p.arr.wr p.tail h
    let a ← a.wrList (p.tail + 1) v
    fillMap (i + 1) l { p with dir := d, arr := a, tail := p.tail + (v.length + 1) }

/-- containers/hlists.hpp:64-77: constructor from a map of lists. -/
def ofMap (l : List (α × List α)) : Res (Pool α) :=
  fillMap 0 l (Pool.reserved l.length (l.length + (l.map fun r => (r.2.length : Int)).sum))

/-- containers/hlists.hpp:98-100: `total()`. -/
def total (p : Pool α) : Int := p.total - p.size

/-- containers/hlists.hpp:102-105: `size_of(i)`. -/
def sizeOf (p : Pool α) (i : Int) : Res Int := do
  Res.assrt (i < p.size)
  let l ← p.dir.at' i 1
  Res.ok (l - 1)

/-- containers/hlists.hpp:107-110: `head(i)`. -/
def head (p : Pool α) (i : Int) : Res α := do
  Res.assrt (i < p.size)
  let o ← p.dir.at' i 0
  p.arr.rd o

/-- containers/hlists.hpp:112-115: `set_head(i,v)`. -/
def setHead (p : Pool α) (i : Int) (v : α) : Res (Pool α) := do
  Res.assrt (i < p.size)
  let o ← p.dir.at' i 0
  let a ← p.arr.wr o v
  Res.ok { p with arr := a }

/-- containers/hlists.hpp:123-127: `operator()(i,j)`. -/
def get (p : Pool α) (i j : Int) : Res α := do
  Res.assrt (i < p.size)
  let len ← p.dir.at' i 1
  Res.assrt (j < len - 1)
  let o ← p.dir.at' i 0
  p.arr.rd (o + j + 1)

/-- containers/hlists.hpp:129-133: `set(i,j,v)`. -/
def set (p : Pool α) (i j : Int) (v : α) : Res (Pool α) := do
  Res.assrt (i < p.size)
  let len ← p.dir.at' i 1
  Res.assrt (j < len - 1)
  let o ← p.dir.at' i 0
  let a ← p.arr.wr (o + j + 1) v
  Res.ok { p with arr := a }

/-- containers/hlists.hpp:135-143: `operator()(i)`. -/
def list (p : Pool α) (i : Int) : Res (List α) := do
  Res.assrt (i < p.size)
  let o ← p.dir.at' i 0
  let l ← p.dir.at' i 1
  Res.assrt (0 ≤ l - 1)
  p.arr.rdList (o + 1) (l - 1).toNat

/-- containers/hlists.hpp:149-153: `for_each(lambda(head,list))`, as the list of arguments passed to the
lambda; `k` rows from row `i` on. -/
def rows (p : Pool α) (i : Int) : Nat → Res (List (α × List α))
  | 0 => .ok []
  | k + 1 => do
    let h ← head p i
    let v ← list p i
    let l ← rows p (i + 1) k
    Res.ok ((h, v) :: l)

/-- containers/hlists.hpp:149-153: `for_each(lambda(head,list))`. -/
def forEach (p : Pool α) : Res (List (α × List α)) := rows p 0 p.size.toNat

/-- containers/hlists.hpp:186-188: `push_back(len)`. -/
def pushLen (p : Pool α) (len : Int) : Res (Pool α) := p.pushLen (len + 1)

/-- containers/hlists.hpp:190-199: `push_back(x,vector)`; also 213-215. -/
def pushVec (p : Pool α) (x : α) (v : List α) : Res (Pool α) := do
  let len : Int := v.length + 1
  let p ← p.grow len
  let a ← p.arr.wr p.tail x
  let a ← a.wrList (p.tail + 1) v
  let d ← p.dir.pushBack p.tail len
  Res.ok { p with arr := a, dir := d, tail := p.tail + len }

/-- containers/hlists.hpp:206-208: the loop of `push_back(h,set)`, in which `i` stays 0. -/
def wrSame (a : Arr α) (at' : Int) : List α → Res (Arr α)
  | [] => .ok a
  | v :: l => a.wr at' v >>= fun a => wrSame a at' l

/-- containers/hlists.hpp:201-211: `push_back(h,set)`; `v` are the elements in increasing order. -/
def pushSet (p : Pool α) (h : α) (v : List α) : Res (Pool α) := do
  let len : Int := v.length + 1
  let p ← p.grow len
  let a ← p.arr.wr p.tail h
  let a ← wrSame a (p.tail + 1) v
  let d ← p.dir.pushBack p.tail len
  Res.ok { p with arr := a, dir := d, tail := p.tail + len }

/-- containers/hlists.hpp:217-219: `push_back(i,v)`. -/
def append (p : Pool α) (i : Int) (v : α) : Res (Pool α) := p.append i v

end HL

/-- containers/int_pool.hpp:25-28: fields of `int_pool`. -/
structure IntPool where
  n : Int
  last : Int
  arr : Arr Int
  deriving Repr, DecidableEq

namespace IntPool

/-- containers/int_pool.hpp:35-41: constructor; `new int[memsize]` with `memsize=_n+_m+2` (throws when
negative). -/
def mk' (n m : Int) : Res IntPool := do
  Res.assrt (0 ≤ n + m + 2)
  let a : Arr Int := List.replicate (n + m + 2).toNat none
  let a ← a.wr 0 n
  let a ← a.wr 1 (n + 2)
  Res.ok ⟨n, -1, a⟩

/-- containers/int_pool.hpp:97-99: `tail()`. -/
def tail (p : IntPool) : Res Int := p.arr.rd (p.last + 2)

/-- containers/int_pool.hpp:101-104: `addr_of(i)`. -/
def addrOf (p : IntPool) (i : Int) : Res Int := do
  Res.assrt (i < p.n)
  p.arr.rd (i + 1)

/-- containers/int_pool.hpp:106-109: `size_of(i)`. -/
def sizeOf (p : IntPool) (i : Int) : Res Int := do
  Res.assrt (i < p.n)
  let b ← p.arr.rd (i + 2)
  let a ← p.arr.rd (i + 1)
  Res.ok (b - a)

/-- containers/int_pool.hpp:111-115: `operator()(i,j)`. -/
def get (p : IntPool) (i j : Int) : Res Int := do
  Res.assrt (i < p.n)
  let s ← p.sizeOf i
  Res.assrt (j < s)
  let a ← p.arr.rd (i + 1)
  p.arr.rd (a + j)

/-- containers/int_pool.hpp:123-127: `set(i,j,v)`. -/
def set (p : IntPool) (i j v : Int) : Res IntPool := do
  Res.assrt (i < p.n)
  let s ← p.sizeOf i
  Res.assrt (j < s)
  let a ← p.arr.rd (i + 1)
  let arr ← p.arr.wr (a + j) v
  Res.ok { p with arr := arr }

/-- containers/int_pool.hpp:129-133: `add_vec(m)`, with its return value. -/
def addVec (p : IntPool) (m : Int) : Res (IntPool × Int) := do
  let x ← p.arr.rd (p.last + 1)
  let a ← p.arr.wr (p.last + 2) (x + m)
  let last := p.last + 1
  let r ← a.rd (last + 1)
  Res.ok ({ p with arr := a, last := last }, r)

/-- containers/map_of_maps.hpp:39-45: the way `add_vec` is used in the loop of `as_int_pool`; `rows` are the
keys of each row.  (As written that loop does not compile: line 42 iterates over a pair instead of its
second component.) -/
def addRows : List (List Int) → IntPool → Res IntPool
  | [], p => .ok p
  | q :: l, p => do
    let start ← p.tail
    let a ← p.arr.wrList start q
    let (p, _) ← ({ p with arr := a } : IntPool).addVec q.length
    addRows l p

/-- containers/map_of_maps.hpp:37-47: `as_int_pool()`. -/
def ofRows (rows : List (List Int)) : Res IntPool :=
  mk' rows.length (rows.map fun q => (q.length : Int)).sum >>= addRows rows

end IntPool

/-- containers/auto_array.hpp:28-30: fields of `auto_array`. -/
structure AutoArray (α : Type _) where
  arr : Arr α
  memsize : Nat
  size : Nat
  deriving Repr, DecidableEq

namespace AutoArray

variable {α : Type _}

/-- containers/auto_array.hpp:39-43: default constructor. -/
def empty : AutoArray α := ⟨[none], 1, 0⟩

/-- containers/auto_array.hpp:45-49: `auto_array(n)` for `n≥0`. -/
def ofSize (n : Nat) : AutoArray α := ⟨List.replicate n none, n, n⟩

/-- containers/auto_array.hpp:55-59: copy constructor. -/
def copy (x : AutoArray α) : AutoArray α := ⟨List.replicate x.memsize none, x.memsize, x.size⟩

/-- containers/auto_array.hpp:77-85: `reserve(x)`. -/
def reserve (a : AutoArray α) (x : Nat) : Res (AutoArray α) :=
  if x ≤ a.memsize then .ok a else
  let m := max x (2 * a.memsize)
  a.arr.copy a.memsize (List.replicate m none) 0 >>= fun b => .ok { a with arr := b, memsize := m }

/-- containers/auto_array.hpp:72-75: `resize(n)`. -/
def resize (a : AutoArray α) (n : Nat) : Res (AutoArray α) :=
  (if a.memsize < n then a.reserve n else .ok a) >>= fun a => .ok { a with size := n }

/-- containers/auto_array.hpp:96 (= 101, 106, 111): `if(i>=_size) resize(i+1)`. -/
def ensure (a : AutoArray α) (i : Nat) : Res (AutoArray α) :=
  if a.size ≤ i then a.resize (i + 1) else .ok a

/-- containers/auto_array.hpp:95-98 (`operator[]` on a const object), 105-108 (`get`): returns the object
as well since reading may grow it.  100-103 (`operator[]`, read through the reference) is the same. -/
def get (a : AutoArray α) (i : Nat) : Res (AutoArray α × α) := do
  let a ← a.ensure i
  let v ← a.arr.rd i
  Res.ok (a, v)

/-- containers/auto_array.hpp:110-113: `set(i,x)`. -/
def set (a : AutoArray α) (i : Nat) (v : α) : Res (AutoArray α) := do
  let a ← a.ensure i
  let b ← a.arr.wr i v
  Res.ok { a with arr := b }

end AutoArray

end Cnine
