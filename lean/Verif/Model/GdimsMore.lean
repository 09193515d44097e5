import Verif.Model.Index
import Verif.Model.Elem

/-!
# Further functions of `Gvec`, `Gdims`, `Gindex` and `GindexSet`

include/gvectr.hpp, include/Gdims.hpp, include/Gindex.hpp and include/GindexSet.hpp.  `int` is an integer without bounds.  Vectors are lists; `size()` has the type `size_t`, so that
`size()-1` of an empty vector is the largest number of that type, and a loop up to it leaves the vector (`ub`).
-/

namespace Cnine

namespace GDM

variable {α : Type _}

/-- `v[i]` of a vector (include/gvectr.hpp:82): outside the vector the behaviour is undefined. -/
def at' (l : List α) (i : Int) : Res α :=
  if i < 0 then .ub else Res.get l i.toNat

/-! ## Vectors -/

/-- include/gvectr.hpp:80-83 `operator()(i)`. -/
def call (l : List α) (i : Int) : Res α :=
  if i < 0 then at' l (l.length + i) else at' l i

/-- include/gvectr.hpp:85-87 `back(i)`. -/
def back (l : List α) (i : Int) : Res α := at' l (l.length - 1 - i)

/-- include/gvectr.hpp:99-102 `set_back(i,x)`; 94-97 `set_back(x)` is the case `i=0`. -/
def setBack (l : List α) (i : Int) (x : α) : Res (List α) :=
  if l.length - 1 - i < 0 then .ub else gvSet l (l.length - 1 - i).toNat x

/-- include/gvectr.hpp:116-118 `max()`: the element after the last one of an empty vector is read. -/
def max : List Int → Res Int
  | [] => .ub
  | a :: l => .ok (l.foldl (fun t x => if t < x then x else t) a)

/-- include/gvectr.hpp:120-122 `min()`. -/
def min : List Int → Res Int
  | [] => .ub
  | a :: l => .ok (l.foldl (fun t x => if x < t then x else t) a)

/-- include/gvectr.hpp:155-162 `insert(j,n,x)`.  For negative `n` the second `copy` writes over the last entries of the first one, or leaves the vector. -/
def insertN (l : List α) (j : Nat) (n : Int) (x : α) : Res (List α) :=
  if l.length + n < 0 then .throw
  else if n < 0 then
    if 0 ≤ j + n ∧ j ≤ l.length + n then .ok (l.take (j + n).toNat ++ l.drop j) else .ub
  else if j ≤ l.length then .ok (l.take j ++ (List.replicate n.toNat x ++ l.drop j)) else .ub

/-- include/gvectr.hpp:282-289 `operator<`: the loop of lines 285-288. -/
def lt : List Int → List Int → Bool
  | [], y => decide (0 < y.length)
  | _ :: _, [] => false
  | a :: x, b :: y => if a = b then lt x y else decide (a < b)

/-! ## Sizes -/

/-- include/Gdims.hpp:190-195 `combined(a,b)`. -/
def combined (d : List Int) (a b : Int) : Res Int := do
  Res.assrt (a ≤ b)
  Res.assrt (0 ≤ b ∧ b ≤ d.length)
  Cnine.loop (b - a).toNat 1 fun i t => do
    let v ← at' d (a + i)
    .ok (t * v)

/-- include/Gdims.hpp:222-225 `transpose()`. -/
def transpose (d : List Int) : Res (List Int) := do
  Res.assrt (d.length = 2)
  let a ← Res.get d 1
  let b ← Res.get d 0
  .ok [a, b]

/-- include/Gdims.hpp:227-233 `convolve(y)`. -/
def convolve (d y : List Int) : Res (List Int) := do
  Res.assrt (d.length = y.length)
  .ok (List.zipWith (fun a b => a - (b - 1)) d y)

/-- `for(int i=0; i<size()-1; i++) R[i]=x[i+s]` (include/Gdims.hpp:251 and the like): the entries of `x` without one, starting at `s`. -/
def allBut (x : List Int) (s : Nat) : Res (List Int) :=
  match x with
  | [] => .ub
  | _ => .ok ((x.drop s).take (x.length - 1))

/-- include/Gdims.hpp:249-254 `Mprod`, 256-261 `Mprod_AT`, 263-268 `Mprod_TA` and 270-275 `Mprod_TT`, which differ in the starts `s` and `t`.  The number `size()+y.size()-2` is
converted to `int` and back; if it is negative the vector is not made. -/
def mprod (s t : Nat) (x y : List Int) : Res (List Int) :=
  if x.length + y.length < 2 then .throw else do
    let a ← allBut x s
    let b ← allBut y t
    .ok (a ++ b)

/-- include/Gdims.hpp:277-286 `mvprod(y)`. -/
def mvprod (x y : List Int) : Res (List Int) := do
  let d : Int := x.length - 1
  Res.assrt ((y.length : Int) = d)
  let a ← gvChunk x 0 (d - 1)
  let b ← gvChunk y 0 (d - 1)
  Res.assrt (a = b)
  let u ← at' x d
  let v ← at' y (d - 1)
  Res.assrt (u = v)
  let w ← at' x (d - 1)
  .ok (x.take (d - 1).toNat ++ [w])

/-- include/Gdims.hpp:292-299 `select(s)`; `s` is the increasing list of the set.  A negative number is larger than every size when it is compared with one. -/
def select (d : List Int) : List Int → Res (List Int)
  | [] => .ok []
  | p :: s => do
    Res.assrt (0 ≤ p ∧ p < d.length)
    let v ← at' d p
    let r ← select d s
    .ok (v :: r)

/-- include/Gdims.hpp:302-307 `unite(s)`: the loop from `t`. -/
def uniteFrom (d : List Int) (t : Int) : List Int → Res Int
  | [] => .ok t
  | p :: s => do
    Res.assrt (0 ≤ p ∧ p < d.length)
    let v ← at' d p
    uniteFrom d (t * v) s

/-- include/Gdims.hpp:301-308 `unite(s)`. -/
def unite (d s : List Int) : Res Int := uniteFrom d 1 s

/-- include/Gdims.hpp:389-391: the loop of `check_in_range(ix,name)`. -/
def inRangeLoop : List Int → List Int → Res Unit
  | [], _ => .ok ()
  | n :: d, ix => do
    let i ← at' ix 0
    if i < 0 ∨ i ≥ n then .throw else inRangeLoop d (ix.drop 1)

/-- include/Gdims.hpp:388-392 `check_in_range(ix,name)`. -/
def checkInRange (d ix : List Int) : Res Unit :=
  if d.length ≠ ix.length then .throw else inRangeLoop d ix

/-! ## Indices -/

/-- include/Gindex.hpp:42-44, the constructor from a vector. -/
def index (x : List Int) : List Int := x.filter fun p => decide (p ≥ 0)

/-- include/Gindex.hpp:187-193 `check_range(dims)` and 195-201 `check_arange(dims)`. -/
def checkRange (ix d : List Int) : Res Unit :=
  if ix.length ≠ d.length then .throw
  else if ix.any fun p => decide (p < 0) then .throw
  else if (ix.zip d).any fun p => decide (p.1 ≥ p.2) then .throw
  else .ok ()

/-- include/Gindex.hpp:242-251 `hash<Gindex>`; `h` is `std::hash<int>`. -/
def hash (h : Int → BitVec 64) : List Int → Res (BitVec 64)
  | [] => .ub
  | a :: l => .ok (l.foldl (fun t x => (t <<< 1) ^^^ h x) (h a))

end GDM

end Cnine
