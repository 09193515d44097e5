import Verif.Model.Basic
import Verif.Model.UMap

/-!
# Enumeration of combinations (combinatorial/CombinationsB.hpp, combinatorial/CombinationsBank.hpp)

The constructor does not set `N`, and the bank adds to it: its value starts as whatever the memory held (`g` below; reading it is
formally undefined).
-/

namespace Cnine

/-- combinatorial/CombinationsB.hpp:74-83: `n`, `m`, `N` and the array `sub` (its length and its entries). -/
inductive Comb where
  /-- No object. -/
  | null
  /-- An object. -/
  | mk (n m N : Int) (nsub : Nat) (sub : Nat → Comb)

namespace Comb

/-- combinatorial/CombinationsB.hpp:77: `n`. -/
def cn : Comb → Int
  | null => 0
  | mk n _ _ _ _ => n

/-- combinatorial/CombinationsB.hpp:88-90: `getN`. -/
def getN : Comb → Int
  | null => 0
  | mk _ _ N _ _ => N

/-- combinatorial/CombinationsB.hpp:116-129: `for_each`; the arguments of the calls of `fn` in order.  `shift` and `prepend` are
combinatorial/CombinationsB.hpp:35-47. -/
def forEach : Comb → Res (List (List Int))
  | null => .ub
  | mk n m _ nsub sub =>
    if m = 1 then .ok ((List.range n.toNat).map fun (i : Nat) => [(i : Int)])
    else Res.forM (List.range (n - m + 1).toNat) [] fun acc i =>
      if i < nsub then (sub i).forEach >>= fun l => .ok (acc ++ l.map fun x => (i : Int) :: x.map (· + ((i : Int) + 1)))
      else .ub

/-- combinatorial/CombinationsB.hpp:97-102: the loop of `operator[]`: finds the part that holds position `i`. -/
def locate (i : Int) : List Int → Nat → Int → Res (Nat × Int)
  | [], _, _ => .ub
  | N :: Ns, j, t => if i ≥ t + N then locate i Ns (j + 1) (t + N) else .ok (j, t)

/-- combinatorial/CombinationsB.hpp:93-104: `operator[]`.  A failed `assert` is `throw`. -/
def at' : Comb → Int → Res (List Int)
  | null, _ => .ub
  | mk _ m N nsub sub, i =>
    if ¬ i < N then .throw
    else if m = 1 then .ok [i]
    else (locate i ((List.range nsub).map fun j => (sub j).getN) 0 0) >>= fun r =>
      (sub r.1).at' (i - r.2) >>= fun x => .ok ((r.1 : Int) :: x.map (· + ((r.1 : Int) + 1)))

/-- combinatorial/CombinationsB.hpp:107-113: `index`; `rest` is combinatorial/CombinationsB.hpp:49-54. -/
def index : Comb → List Int → Res Int
  | null, _ => .ub
  | mk _ _ _ nsub sub, v =>
    match v with
    | [] => .ub
    | [x] => .ok x
    | x :: y :: rest =>
      if x < 0 then .ub
      else if x.toNat < nsub then
        (sub x.toNat).index ((y :: rest).map (· + (-(x + 1)))) >>= fun r =>
          .ok ((List.range x.toNat).foldl (fun (t : Int) i => t + (sub i).getN) 0 + r)
      else .ub

end Comb

/-- combinatorial/CombinationsBank.hpp:47-66: the objects by `n` and `m` (the two levels of maps are one here), and the number of
allocations so far. -/
structure CombBank where
  objs : UMap (Int × Int) Comb
  count : Nat

namespace CombBank

/-- The empty bank. -/
def init : CombBank := ⟨[], 0⟩

/-- combinatorial/CombinationsBank.hpp:68-86: `get(n,k+1)`; `g c` is what the memory of the `c`-th allocation held in the place
of `N`.  (For `m ≤ 0` and `n ≥ 0` the recursion never ends; not modelled.) -/
def get (g : Nat → Int) : Nat → Int → CombBank → Comb × CombBank
  | 0, n, b =>
    match UMap.find? (n, 1) b.objs with
    | some C => (C, b)
    | none =>
      let C := Comb.mk n 1 n 0 fun _ => .null
      (C, ⟨UMap.set (n, 1) C b.objs, b.count + 1⟩)
  | k + 1, n, b =>
    match UMap.find? (n, (k : Int) + 2) b.objs with
    | some C => (C, b)
    | none =>
      let r := (List.range (n - ((k : Int) + 2) + 1).toNat).foldl (fun (s : Int × List Comb × CombBank) (i : Nat) =>
        let x := get g k (n - i - 1) s.2.2
        (s.1 + x.1.cn, s.2.1 ++ [x.1], x.2)) (g b.count, [], ⟨b.objs, b.count + 1⟩)
      let C := Comb.mk n ((k : Int) + 2) r.1 r.2.1.length fun i => r.2.1.getD i .null
      (C, ⟨UMap.set (n, (k : Int) + 2) C r.2.2.objs, r.2.2.count⟩)

end CombBank

end Cnine
