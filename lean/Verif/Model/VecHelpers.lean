import Verif.Model.Elem

/-!
# Model of the vector helpers of include/Cnine_base_helpers.hpp

`permute`, the two kinds of `mapcar` and the `indenter`.  Sizes fit `int`; the functions handed to `mapcar` are pure.
-/

namespace Cnine.VH

variable {α β γ : Type _}

/-- include/Cnine_base_helpers.hpp:69-70: the loop of `permute`. -/
def pick (x : List Int) : List Int → Res (List Int)
  | [] => .ok []
  | p :: pi => do
    let a ← if p < 0 then .ub else Res.get x p.toNat
    let r ← pick x pi
    .ok (a :: r)

/-- include/Cnine_base_helpers.hpp:65-72 `permute(x,pi)`, for `int`: both vectors have the same type. -/
def permute (x pi : List Int) : Res (List Int) := do
  Res.assrt (x.length = pi.length)
  pick x pi

/-- include/Cnine_base_helpers.hpp:82-89, 91-98 `mapcar(v,lambda)`. -/
def mapcar (v : List α) (f : α → β) : List β := v.foldl (fun R p => R ++ [f p]) []

/-- include/Cnine_base_helpers.hpp:100-109 `mapcar(x1,x2,lambda)`. -/
def mapcar2 (x : List α) (y : List β) (f : α → β → γ) : Res (List γ) := do
  Res.assrt (x.length = y.length)
  loop x.length [] fun i R => do
    let a ← Res.get x i
    let b ← Res.get y i
    .ok (R ++ [f a b])

/-- Code that writes lines, may fail, and opens blocks, each with its own `indenter` (include/Cnine_base_helpers.hpp:215-229). -/
inductive Code
  | line (s : String)
  | fail
  | block (s : String) (c : Code)
  | seq (c d : Code)

/-- include/Cnine_base_helpers.hpp:220-227: the lines written, `base_indent` afterwards, and whether an exception goes out.  The
destructor runs also when an exception leaves the block. -/
def Code.run : Code → String → List String × String × Bool
  | .line s, b => ([b ++ s], b, false)
  | .fail, b => ([], b, true)
  | .block s c, b =>
    let old := b
    let r := c.run (b ++ s)
    (r.1, old, r.2.2)
  | .seq c d, b =>
    let r := c.run b
    if r.2.2 then r else
      let q := d.run r.2.1
      (r.1 ++ q.1, q.2)

end Cnine.VH
