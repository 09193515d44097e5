import Verif.Model.Pool

/-!
# Model of the gather maps

hpc/GatherMapB.hpp, hpc/WeightedGatherMapB.hpp, hpc/FixedkGatherMap.hpp, hpc/GatherMapPack.hpp.

Host memory only.  `int` is unbounded.  A `std::unordered_map` is traversed in an order the standard leaves
open: functions that traverse one take that order as an argument.  A `std::map` is a list sorted by key.
-/

namespace Cnine

/-- hpc/GatherMapB.hpp:35-59: `arr`, `sorted`, `n_out`, `n_in` and the column counts (`Nat`).  The cached
inverse and the fixed-k maps are kept outside (`GObj`). -/
structure GMap where
  arr : Pool Int
  sorted : Bool := false
  nOut : Int
  nIn : Int
  inCols : Nat := 1
  outCols : Nat := 1
  inColsN : Nat := 1
  outColsN : Nat := 1
  deriving Repr, DecidableEq

namespace GMap

/-- hpc/GatherMapB.hpp:74-75: `GatherMapB(n_out,n_in)`. -/
def ofSizes (nOut nIn : Int) : GMap := { arr := Pool.empty, nOut := nOut, nIn := nIn }

/-- hpc/GatherMapB.hpp:85 (= 86, 117, 120, 160, 162): the running maximum of `x+1`. -/
def bumpAll (n : Int) (l : List Int) : Int := l.foldl (fun n x => max n (x + 1)) n

/-- hpc/GatherMapB.hpp:84 (= 126): `sizes[t]`, the number of edges with target `t`. -/
def countOf (targets : List Int) (t : Int) : Nat := (targets.filter (· = t)).length

/-- hpc/GatherMapB.hpp:102-104 (= 142-144): `arr.push_back(mapping[target],source)` for each edge (source,
target); `mapping[t]` is the position of `t` in the traversal order `ord` of `sizes`. -/
def fillEdges (ord : List Int) : List (Int × Int) → Pool Int → Res (Pool Int)
  | [], p => .ok p
  | e :: l, p => HL.append p (ord.idxOf e.2) e.1 >>= fun p => fillEdges ord l p

/-- hpc/GatherMapB.hpp:77-105: constructor from the vectors of sources and targets. -/
def ofArrays (ord : List Int) (sources targets : List Int) : Res GMap := do
  Res.assrt (decide (sources.length = targets.length))
  let p ← HL.ofLengths true ord (ord.map fun t => (countOf targets t : Int))
  let p ← fillEdges ord (sources.zip targets) p
  Res.ok { arr := p, nOut := bumpAll 0 targets, nIn := bumpAll 0 sources }

/-- hpc/GatherMapB.hpp:123-125: the range checks, in the order of the rows of the matrix. -/
def checkEdges (nIn nOut : Int) : List (Int × Int) → Res Unit
  | [] => .ok ()
  | e :: l => do
    Res.assrt (e.1 < nIn)
    Res.assrt (e.2 < nOut)
    checkEdges nIn nOut l

/-- hpc/GatherMapB.hpp:108-145: constructor from an `N×2` matrix of (source, target) rows. -/
def ofMatrix (ord : List Int) (m : List (Int × Int)) (nIn nOut : Int) : Res GMap := do
  let nIn := if nIn = -1 then bumpAll nIn (m.map (·.1)) else nIn
  let nOut := if nOut = -1 then bumpAll nOut (m.map (·.2)) else nOut
  checkEdges nIn nOut m
  let p ← HL.ofLengths false ord (ord.map fun t => (countOf (m.map (·.2)) t : Int))
  let p ← fillEdges ord m p
  Res.ok { arr := p, nOut := nOut, nIn := nIn }

/-- hpc/GatherMapB.hpp:166-167 (= 188-194, 376-377): append the rows of a map of lists. -/
def pushRows : List (Int × List Int) → Pool Int → Res (Pool Int)
  | [], p => .ok p
  | r :: l, p => HL.pushVec p r.1 r.2 >>= fun p => pushRows l p

/-- `x.size()+total` (hpc/GatherMapB.hpp:165,187,375). -/
def roomOf (x : List (Int × List Int)) : Int := x.length + (x.map fun r => (r.2.length : Int)).sum

/-- hpc/GatherMapB.hpp:148-168 (from a `map_of_lists`) and 172-195 (from a map of maps, of which only the
keys of the inner maps are used): `x` are the entries in the order of traversal. -/
def ofMap (x : List (Int × List Int)) (outCols inCols outColsN inColsN : Nat) : Res GMap := do
  let p ← Pool.empty.reserve (roomOf x)
  let p ← pushRows x p
  Res.ok { arr := p, nOut := bumpAll 0 (x.map (·.1)), nIn := bumpAll 0 (x.flatMap (·.2)), inCols := inCols
           outCols := outCols, inColsN := inColsN, outColsN := outColsN }

/-- hpc/GatherMapB.hpp:325-326: the calls of the lambda for row `i`, `k` sources from `j` on. -/
def rowEdges (g : GMap) (i t j : Int) : Nat → Res (List (Int × Int))
  | 0 => .ok []
  | k + 1 => do
    let s ← HL.get g.arr i j
    let l ← rowEdges g i t (j + 1) k
    Res.ok ((t, s) :: l)

/-- hpc/GatherMapB.hpp:322-327: rows `i`, … , `i+k-1`. -/
def edgesFrom (g : GMap) (i : Int) : Nat → Res (List (Int × Int))
  | 0 => .ok []
  | k + 1 => do
    let m ← HL.sizeOf g.arr i
    let t ← HL.head g.arr i
    let l ← rowEdges g i t 0 m.toNat
    let r ← edgesFrom g (i + 1) k
    Res.ok (l ++ r)

/-- hpc/GatherMapB.hpp:319-328: `for_each`, as the list of (target, source) pairs passed to the lambda. -/
def forEach (g : GMap) : Res (List (Int × Int)) := edgesFrom g 0 g.arr.size.toNat

/-- hpc/GatherMapB.hpp:281-283: `n_ops()`. -/
def nOps (g : GMap) : Int := g.arr.tail - g.arr.size

/-- `m[k].push_back(v)` for a `std::map<int,vector<int>>` (hpc/GatherMapB.hpp:369,394,418). -/
def mapPush {β : Type} (k : Int) (v : β) : List (Int × List β) → List (Int × List β)
  | [] => [(k, [v])]
  | (k', vs) :: m =>
    if k < k' then (k, [v]) :: (k', vs) :: m
    else if k = k' then (k', vs ++ [v]) :: m
    else (k', vs) :: mapPush k v m

/-- hpc/GatherMapB.hpp:366-371: `inv_map`. -/
def invMap (edges : List (Int × Int)) : List (Int × List Int) :=
  edges.foldl (fun m e => mapPush e.2 e.1 m) []

/-- hpc/GatherMapB.hpp:364-384: `make_inv()`, returning the new map. -/
def makeInv (g : GMap) : Res GMap := do
  let es ← g.forEach
  let m := invMap es
  let p ← Pool.empty.reserve (m.length + es.length)
  let p ← pushRows m p
  Res.ok { arr := p, nOut := g.nIn, nIn := g.nOut, inCols := g.outCols, outCols := g.inCols
           inColsN := g.outColsN, outColsN := g.inColsN }

/-- hpc/GatherMapB.hpp:393-394: row numbers by negated length; 417-418 with `neg := false`. -/
def lengthsFrom (neg : Bool) (g : GMap) (i : Int) : Nat → List (Int × List Int) → Res (List (Int × List Int))
  | 0, m => .ok m
  | k + 1, m => do
    let s ← HL.sizeOf g.arr i
    lengthsFrom neg g (i + 1) k (mapPush (if neg then -s else s) i m)

/-- hpc/GatherMapB.hpp:402-404 (= 440-441): `r.set(i,a,(*this)(q,a))`, `k` entries from `a` on. -/
def copyCells (g : GMap) (q i a : Int) : Nat → Pool Int → Res (Pool Int)
  | 0, p => .ok p
  | k + 1, p => do
    let v ← HL.get g.arr q a
    let p ← HL.set p i a v
    copyCells g q i (a + 1) k p

/-- hpc/GatherMapB.hpp:400-404 (= 438-441): row `q` of `g`, of length `len`, is appended. -/
def copyRow (g : GMap) (len q : Int) (p : Pool Int) : Res (Pool Int) := do
  let p ← HL.pushLen p len
  let i := p.size - 1
  let t ← HL.head g.arr q
  let p ← HL.setHead p i t
  copyCells g q i 0 len.toNat p

/-- hpc/GatherMapB.hpp:399-405 (= 437-442): the rows of one length. -/
def copyRows (g : GMap) (len : Int) : List Int → Pool Int → Res (Pool Int)
  | [], p => .ok p
  | q :: l, p => copyRow g len q p >>= fun p => copyRows g len l p

/-- hpc/GatherMapB.hpp:397-406. -/
def copyGroups (g : GMap) : List (Int × List Int) → Pool Int → Res (Pool Int)
  | [], p => .ok p
  | (k, qs) :: m, p => copyRows g (-k) qs p >>= fun p => copyGroups g m p

/-- hpc/GatherMapB.hpp:387-410: `sort()`. -/
def sort (g : GMap) : Res GMap :=
  if g.sorted then .ok g else do
    let m ← lengthsFrom true g 0 g.arr.size.toNat []
    let p ← Pool.empty.reserve g.arr.tail
    let p ← copyGroups g m p
    Res.ok { g with arr := p, sorted := true }

/-- hpc/GatherMapB.hpp:338-342: `push_back(len)` with its return value. -/
def pushLen (g : GMap) (len : Int) : Res (GMap × Int) := do
  let p ← HL.pushLen g.arr len
  Res.ok ({ g with arr := p, sorted := false }, p.size - 1)

/-- hpc/GatherMapB.hpp:349-352 (also 354-357): `push_back(t,vector)`. -/
def pushVec (g : GMap) (t : Int) (v : List Int) : Res GMap := do
  let p ← HL.pushVec g.arr t v
  Res.ok { g with arr := p, sorted := false }

/-- hpc/FixedkGatherMap.hpp:26-50: an `n×(K+1)` integer tensor, row-major; column 0 holds the target. -/
structure Fixedk where
  n : Nat
  k : Nat
  cells : List Int
  deriving Repr, DecidableEq

/-- hpc/FixedkGatherMap.hpp:49-50 via tensors/Ltensor.hpp:85-86: filled with zeros. -/
def Fixedk.new (n k : Nat) : Fixedk := ⟨n, k, List.replicate (n * (k + 1)) 0⟩

/-- hpc/FixedkGatherMap.hpp:120-128: `for_each` (target 103-105, source 111-113). -/
def Fixedk.edges (f : Fixedk) : List (Int × Int) :=
  (List.range f.n).flatMap fun i => (List.range f.k).map fun j =>
    (f.cells.getD (i * (f.k + 1)) 0, f.cells.getD (i * (f.k + 1) + (j + 1)) 0)

/-- hpc/GatherMapB.hpp:433-434: `gv.slice0(j)=arr.view_of(p.second[j])`, `k` rounds.  `Itensor1_view` has
no assignment operator of its own (tensor_views/Itensor1_view.hpp:26-46), so the temporary view returned by
`slice0` is rebound and no element is copied.  `view_of` throws for rows past the end
(containers/array_pool.hpp:672-675). -/
def gradeFill (g : GMap) : List Int → Fixedk → Res Fixedk
  | [], f => .ok f
  | q :: l, f => do
    let _ ← g.arr.offset q
    let _ ← g.arr.sizeOf q
    gradeFill g l f

/-- hpc/GatherMapB.hpp:430: `p.second.size()>=min_size`, where `min_size` is converted to `size_t`. -/
def bigGroup (qs : List Int) (minSize : Int) : Bool := decide (0 ≤ minSize ∧ minSize ≤ qs.length)

/-- hpc/GatherMapB.hpp:428-444. -/
def gradeGroups (g : GMap) (minSize : Int) : List (Int × List Int) → Pool Int → List Fixedk →
    Res (Pool Int × List Fixedk)
  | [], p, fs => .ok (p, fs)
  | (len, qs) :: m, p, fs =>
    if bigGroup qs minSize then
      gradeFill g qs (Fixedk.new qs.length len.toNat) >>= fun f => gradeGroups g minSize m p (fs ++ [f])
    else copyRows g len qs p >>= fun p => gradeGroups g minSize m p fs

/-- hpc/GatherMapB.hpp:420-423: `rem_size`. -/
def remSize (minSize : Int) (m : List (Int × List Int)) : Int :=
  ((m.filter fun r => !bigGroup r.2 minSize).map fun r => (r.1 + 1) * (r.2.length : Int)).sum

/-- hpc/GatherMapB.hpp:413-448: `grade(min_size)`; also returns the maps appended to `fixedk_maps`. -/
def grade (g : GMap) (minSize : Int) : Res (GMap × List Fixedk) := do
  let m ← lengthsFrom false g 0 g.arr.size.toNat []
  let p ← Pool.empty.reserve (remSize minSize m)
  let r ← gradeGroups g minSize m p []
  Res.ok ({ g with arr := r.1 }, r.2)

end GMap

/-- A gather map together with its cached inverse (hpc/GatherMapB.hpp:36). -/
structure GObj where
  map : GMap
  inv : Option GMap := none
  deriving Repr, DecidableEq

namespace GObj

/-- hpc/GatherMapB.hpp:305-313: `inv()`, `inv_ptr()`; the object is returned with its cache. -/
def getInv (o : GObj) : Res (GObj × GMap) :=
  match o.inv with
  | some i => .ok (o, i)
  | none => o.map.makeInv >>= fun i => .ok ({ o with inv := some i }, i)

/-- hpc/GatherMapB.hpp:349-352: `push_back(t,vector)` does not touch the cached inverse. -/
def pushVec (o : GObj) (t : Int) (v : List Int) : Res GObj := do
  let g ← o.map.pushVec t v
  Res.ok { o with map := g }

/-- hpc/GatherMapB.hpp:387-410: `sort()`. -/
def sort (o : GObj) : Res GObj := do
  let g ← o.map.sort
  Res.ok { o with map := g }

end GObj

/-! ## Weighted maps

A row of a weighted map holds pairs of a source and the bit pattern of a `float` weight, both stored as
`int`.  In the model weights are these bit patterns. -/

namespace WMap

/-- Integer part of a finite IEEE 754 single precision number without sign, given by its bit pattern
(exponent: the upper 8 of 31 bits, mantissa: the lower 23). -/
def truncMag (b : Nat) : Nat :=
  let e := b / 2 ^ 23
  let m := b % 2 ^ 23
  if e = 0 then 0
  else if 150 ≤ e then (2 ^ 23 + m) * 2 ^ (e - 150)
  else (2 ^ 23 + m) / 2 ^ (150 - e)

/-- Conversion of a `float`, given by its bit pattern read as an `int`, to `int`: the integer part, undefined
for infinities, NaN and values outside of `int`. -/
def truncBits (b : Int) : Res Int :=
  let mag := (if b < 0 then b + 2 ^ 31 else b).toNat
  let v : Int := if b < 0 then -(truncMag mag : Int) else truncMag mag
  if mag / 2 ^ 23 ≥ 255 ∨ v < -2 ^ 31 ∨ 2 ^ 31 ≤ v then .ub else .ok v

/-- hpc/WeightedGatherMapB.hpp:192-194: `size_of(i)`. -/
def sizeOf (g : GMap) (i : Int) : Res Int := HL.sizeOf g.arr i >>= fun s => .ok (s.tdiv 2)

/-- hpc/WeightedGatherMapB.hpp:213-215: `src(i,j)`. -/
def src (g : GMap) (i j : Int) : Res Int := HL.get g.arr i (2 * j)

/-- hpc/WeightedGatherMapB.hpp:217-219: the bits of `weight(i,j)`; containers/hlists.hpp `ref(i,j)` makes the
same checks as `operator()`. -/
def weight (g : GMap) (i j : Int) : Res Int := HL.get g.arr i (2 * j + 1)

/-- hpc/WeightedGatherMapB.hpp:208-211: `set(i,j,x,c)`: `reinterpret_cast<const float&>(c)` of the float `c`
is `c` itself, so the weight is converted to `int`. -/
def set (p : Pool Int) (i j x c : Int) : Res (Pool Int) := do
  let p ← HL.set p i (2 * j) x
  let v ← truncBits c
  HL.set p i (2 * j + 1) v

/-- hpc/WeightedGatherMapB.hpp:184-186: `n_ops()`. -/
def nOps (g : GMap) : Int := g.arr.tail.tdiv 2 - g.arr.size

/-- hpc/WeightedGatherMapB.hpp:227-230: `push_back(i,s,w)`. -/
def append (p : Pool Int) (i s w : Int) : Res (Pool Int) := do
  let p ← HL.append p i s
  HL.append p i w

/-- hpc/WeightedGatherMapB.hpp:90-92. -/
def fillEdges (ord : List Int) : List (Int × Int × Int) → Pool Int → Res (Pool Int)
  | [], p => .ok p
  | e :: l, p => append p (ord.idxOf e.2.1) e.1 e.2.2 >>= fun p => fillEdges ord l p

/-- hpc/WeightedGatherMapB.hpp:67-93: constructor from sources, targets and weights.  `weights[i]` past the
end is undefined; the model is for `weights` at least as long as `sources`. -/
def ofArrays (ord : List Int) (sources targets weights : List Int) : Res GMap := do
  Res.assrt (decide (sources.length = targets.length))
  let p ← HL.ofLengths true ord (ord.map fun t => (GMap.countOf targets t : Int))
  let p ← fillEdges ord (sources.zip (targets.zip weights)) p
  Res.ok { arr := p, nOut := 0, nIn := 0 }

/-- hpc/WeightedGatherMapB.hpp:242-243: `k` entries of row `i` from `j` on. -/
def rowEdges (g : GMap) (i t j : Int) : Nat → Res (List (Int × Int × Int))
  | 0 => .ok []
  | k + 1 => do
    let s ← src g i j
    let w ← weight g i j
    let l ← rowEdges g i t (j + 1) k
    Res.ok ((t, s, w) :: l)

/-- hpc/WeightedGatherMapB.hpp:239-244. -/
def edgesFrom (g : GMap) (i : Int) : Nat → Res (List (Int × Int × Int))
  | 0 => .ok []
  | k + 1 => do
    let m ← sizeOf g i
    let t ← HL.head g.arr i
    let l ← rowEdges g i t 0 m.toNat
    let r ← edgesFrom g (i + 1) k
    Res.ok (l ++ r)

/-- hpc/WeightedGatherMapB.hpp:237-245: `for_each`, as the list of (target, source, weight bits). -/
def forEach (g : GMap) : Res (List (Int × Int × Int)) := edgesFrom g 0 g.arr.size.toNat

/-- hpc/WeightedGatherMapB.hpp:263-270: `inv_map`; each edge pushes the target and the weight bits. -/
def invMap (edges : List (Int × Int × Int)) : List (Int × List Int) :=
  edges.foldl (fun m e => GMap.mapPush e.2.1 e.2.2 (GMap.mapPush e.2.1 e.1 m)) []

/-- hpc/WeightedGatherMapB.hpp:261-277: `make_inv()`; the column counts are not carried over. -/
def makeInv (g : GMap) : Res GMap := do
  let es ← forEach g
  let m := invMap es
  let p ← Pool.empty.reserve (g.arr.size + 2 * es.length)
  let p ← GMap.pushRows m p
  Res.ok { arr := p, nOut := g.nIn, nIn := g.nOut }

/-- hpc/WeightedGatherMapB.hpp:286-287. -/
def lengthsFrom (g : GMap) (i : Int) : Nat → List (Int × List Int) → Res (List (Int × List Int))
  | 0, m => .ok m
  | k + 1, m => do
    let s ← sizeOf g i
    lengthsFrom g (i + 1) k (GMap.mapPush (-s) i m)

/-- hpc/WeightedGatherMapB.hpp:295-297. -/
def copyCells (g : GMap) (q i a : Int) : Nat → Pool Int → Res (Pool Int)
  | 0, p => .ok p
  | k + 1, p => do
    let s ← src g q a
    let w ← weight g q a
    let p ← set p i a s w
    copyCells g q i (a + 1) k p

/-- hpc/WeightedGatherMapB.hpp:293-297 with 221-225. -/
def copyRow (g : GMap) (len q : Int) (p : Pool Int) : Res (Pool Int) := do
  let p ← HL.pushLen p (2 * len)
  let i := p.size - 1
  let t ← HL.head g.arr q
  let p ← HL.setHead p i t
  copyCells g q i 0 len.toNat p

/-- hpc/WeightedGatherMapB.hpp:292-298. -/
def copyRows (g : GMap) (len : Int) : List Int → Pool Int → Res (Pool Int)
  | [], p => .ok p
  | q :: l, p => copyRow g len q p >>= fun p => copyRows g len l p

/-- hpc/WeightedGatherMapB.hpp:290-299. -/
def copyGroups (g : GMap) : List (Int × List Int) → Pool Int → Res (Pool Int)
  | [], p => .ok p
  | (k, qs) :: m, p => copyRows g (-k) qs p >>= fun p => copyGroups g m p

/-- hpc/WeightedGatherMapB.hpp:280-303: `sort()`. -/
def sort (g : GMap) : Res GMap :=
  if g.sorted then .ok g else do
    let m ← lengthsFrom g 0 g.arr.size.toNat []
    let p ← Pool.empty.reserve g.arr.tail
    let p ← copyGroups g m p
    Res.ok { g with arr := p, sorted := true }

end WMap

/-! ## Packs -/

/-- hpc/GatherMapPack.hpp:24-38: the maps and the pack's own fields. -/
structure GPack where
  maps : List GMap
  nOut : Int := 0
  nIn : Int := 0
  inCols : Nat := 1
  outCols : Nat := 1
  inColsN : Nat := 1
  outColsN : Nat := 1
  inOffs : List Int := []
  outOffs : List Int := []
  deriving Repr, DecidableEq

namespace GPack

/-- hpc/GatherMapPack.hpp:40-50: the pack of one map. -/
def single (x : GMap) : GPack :=
  { maps := [x], nOut := x.nIn, nIn := x.nIn, inCols := x.inCols, outCols := x.outCols, inColsN := x.inColsN
    outColsN := x.outColsN, inOffs := [0], outOffs := [0] }

/-- hpc/GatherMapPack.hpp:54-58 (= 80-84): the map fits the pack. -/
def fits (p : GPack) (x : GMap) : Bool :=
  decide (x.nIn = p.nIn ∧ x.inCols = p.inCols ∧ x.outCols = p.outCols ∧ x.inColsN = p.inColsN ∧
    x.outColsN = p.outColsN)

/-- hpc/GatherMapPack.hpp:52-62: `push_back(x)`: the pack afterwards and whether it returned (`false`: an
assertion threw after the map had been appended).  `back()` of an empty vector is undefined. -/
def pushBack (p : GPack) (x : GMap) : Res (GPack × Bool) :=
  let q := { p with maps := p.maps ++ [x] }
  if p.fits x then
    match p.inOffs.getLast?, p.outOffs.getLast? with
    | some i, some o => .ok ({ q with inOffs := p.inOffs ++ [i + x.nIn * p.inCols]
                                      outOffs := p.outOffs ++ [o + x.nOut * p.outCols]
                                      nOut := p.nOut + x.nOut }, true)
    | _, _ => .ub
  else .ok (q, false)

/-- hpc/GatherMapPack.hpp:79-90: the loop of the constructor from a vector. -/
def offsLoop (io oo : Int) : List GMap → GPack → Res GPack
  | [], p => .ok p
  | x :: l, p => do
    Res.assrt (p.fits x)
    offsLoop (io + x.nIn * p.inCols) (oo + x.nOut * p.outCols) l
      { p with inOffs := p.inOffs ++ [io], outOffs := p.outOffs ++ [oo], nOut := p.nOut + x.nOut }

/-- hpc/GatherMapPack.hpp:64-92: constructor from a vector of maps. -/
def ofVec : List GMap → Res GPack
  | [] => .throw
  | x :: l => offsLoop 0 0 (x :: l)
      { maps := x :: l, nIn := x.nIn, inCols := x.inCols, outCols := x.outCols, inColsN := x.inColsN
        outColsN := x.outColsN }

end GPack

end Cnine
