import Verif.Model.Iview3

/-!
# Model of copying, filling, cutting and listing in tensor_views/Itensor1_view.hpp

With the conventions of `Model/Iview`.
-/

namespace Cnine.IV1

/-- tensor_views/Itensor1_view.hpp:103-113 `set(x)`. -/
def set (r x : IV1) (m : Buf Int) : Res (Buf Int) := do
  Res.assrt (x.v.n0 = r.v.n0)
  if r.v.isRegular && x.v.isRegular then
    if r.dev = 0 ∨ r.dev = 1 then
      if x.dev = r.dev then stdCopy m x.v.arr r.v.n0 r.v.arr else .ub
    else .ok m
  else if r.dev = 0 then loop r.v.n0 m fun i m => do
    let t ← x.get i m
    r.setCell i t m
  else .ok m

/-- tensor_views/Itensor1_view.hpp:159-163 `broadcast(v)`. -/
def broadcast (r : IV1) (t : Int) (m : Buf Int) : Res (Buf Int) := do
  Res.assrt r.v.isRegular
  Res.assrt (r.dev = 0)
  loop r.v.n0 m fun i m => m.write (r.v.arr + i) t

/-- tensor_views/Itensor1_view.hpp:95-97 `block(i0,m0)`. -/
def block (x : IV1) (i0 m0 : Nat) : IV1 := ⟨⟨x.v.arr + i0 * x.v.s0, m0, x.v.s0⟩, x.dev⟩

/-- tensor_views/Itensor1_view.hpp:169-174 `gtensor()`, as the list of its entries. -/
def gtensor (x : IV1) (m : Buf Int) : Res (List Int) :=
  loop x.v.n0 [] fun i l => do
    let t ← x.get i m
    .ok (l ++ [t])

end Cnine.IV1
