import Verif.Model.TFunctions

/-!
# Model of spaces spanned by the columns of a matrix, and of connected components

tensors/functions/ColumnSpace.hpp, ComplementSpace.hpp, SymmEigenspace.hpp and IntersectionSpace.hpp on the host, and the class
`ConnectedComponents` of tensors/functions/BlockDiagonalize.hpp.  Numbers are exact: `conj` is the identity for real types, `root` is
`sqrt`, `big` the comparison `norm>threshold`; the norms of complex vectors are taken as complex numbers.
-/

namespace Cnine
namespace Space

variable {α : Type}

/-- tensors/TensorView_scalar_ops.inc:55-73 `inp(y)` for real types, 75-92 for complex ones. -/
def inp [Zero α] [Add α] [Mul α] (conj : α → α) (v y : View) (m : Buf α) : Res α := do
  Res.assrt (v.dims = y.dims)
  View.inpWith (fun a b => conj a * b) v y m

/-- tensors/TensorView_scalar_ops.inc:95-125 `norm2()`; `std::norm(a)` is `conj(a)*a`. -/
def norm2 [Zero α] [Add α] [Mul α] (conj : α → α) (v : View) (m : Buf α) : Res α :=
  View.reduce (fun t a => t + conj a * a) 0 v m

/-- tensors/TensorView_cumulative_ops.inc:156-169 `subtract(x,c)`. -/
def subTimes [Sub α] [Mul α] (r x : View) (c : α) (m : Buf α) : Res (Buf α) := do
  Res.assrt (asize r.dims = asize x.dims)
  View.addScaled (fun a b => a - c * b) r x m

/-- tensors/functions/ColumnSpace.hpp:37-38: the parts of `col` along the first `nc` columns of `T` are taken off `col`. -/
def takeOff [Zero α] [Add α] [Sub α] [Mul α] (conj : α → α) (T col : View) (nc : Nat) (m : Buf α) : Res (Buf α) :=
  loop nc m fun j m => do
    let t ← T.col j
    let c ← inp conj col t m
    subTimes col t c m

/-- tensors/functions/ColumnSpace.hpp:34-46: one column of `M`; the state is `ncols` and the memory. -/
def colStep [Zero α] [One α] [Add α] [Sub α] [Mul α] [Div α] (conj root : α → α) (big : α → Bool) (T M : View) (i : Nat)
    (s : Nat × Buf α) : Res (Nat × Buf α) := do
  let col ← M.col i
  let m ← takeOff conj T col s.1 s.2
  let n2 ← norm2 conj col m
  let norm := root n2
  if big norm then do
    let t ← T.col s.1
    let m ← TFun.addTimes t col (1 / norm) m
    .ok (s.1 + 1, m)
  else .ok (s.1, m)

/-- tensors/functions/ColumnSpace.hpp:29-48, the constructor: the tensor `T`, made at `q`, `ncols` and the memory. -/
def columnSpace [Zero α] [One α] [Add α] [Sub α] [Mul α] [Div α] (conj root : α → α) (big : α → Bool) (M : View) (q : Nat)
    (m : Buf α) : Res (View × Nat × Buf α) := do
  let T := View.new q M.dims
  let m := allocZero m q (asize M.dims)
  Res.assrt (M.dims.length = 2)
  let d ← Res.get M.dims 1
  let (nc, m) ← loop d (0, m) (colStep conj root big T M)
  .ok (T, nc, m)

/-- tensors/functions/ColumnSpace.hpp:50-60 the conversion and `operator()`: `T.block({T.dim(0),ncols})`. -/
def columnView (T : View) (nc : Nat) : Res View := do
  let n ← Res.get T.dims 0
  T.blockDims [n, nc]

/-- tensors/TensorView.hpp:210-215 `operator=` on a tensor made by the constructor without arguments (120), which has no axes and no
memory: different dimensions are refused, and without axes `TensorView_assign` writes through a null pointer. -/
def assignDefault (dims : List Nat) : Res Unit := do
  Res.assrt (([] : List Nat) = dims)
  .ub

/-- tensors/functions/ComplementSpace.hpp:30-72, the constructor.  The member `M` is assigned to at line 43; what follows is left
out because it is never reached (C214). -/
def complementSpace [Zero α] [One α] [Add α] [Sub α] [Mul α] [Div α] (conj root : α → α) (big : α → Bool) (A : View) (q q' : Nat)
    (m : Buf α) : Res (View × Nat × Buf α) := do
  let (T, nc, m) ← columnSpace conj root big A q m
  let A ← columnView T nc
  Res.assrt (A.dims.length = 2)
  let n ← Res.get A.dims 0
  let d ← Res.get A.dims 1
  loop d () fun i _ => do
    let c ← A.col i
    let _ ← norm2 conj c m
    .ok ()
  assignDefault [n, n]
  .ok (View.new q' [n, n], 0, m)

/-- tensors/functions/SymmEigenspace.hpp:30-38, the constructor; `inc(i,i,-lambda)` writes to the memory of the argument. -/
def symmEigenspace [Zero α] [One α] [Add α] [Sub α] [Neg α] [Mul α] [Div α] (conj root : α → α) (big : α → Bool) (X : View)
    (lam : α) (q q' : Nat) (m : Buf α) : Res (View × Buf α) := do
  Res.assrt (X.dims.length = 2)
  let n ← Res.get X.dims 0
  let n' ← Res.get X.dims 1
  Res.assrt (n = n')
  let m ← loop n m fun i m => do
    let c ← X.addr [i, i]
    let a ← m.read c
    m.write c (a + -lam)
  let (M, nc, m) ← complementSpace conj root big X q q' m
  let T ← columnView M nc
  assignDefault T.dims
  .ok (T, m)

/-- tensors/functions/IntersectionSpace.hpp:32-41, the constructor, for `float`; `qs` are the addresses of the tensors made. -/
def intersectionSpace [Zero α] [One α] [Add α] [Sub α] [Mul α] [Div α] (root : α → α) (big : α → Bool) (X Y : View)
    (qs : Nat → Nat) (m : Buf α) : Res (View × Buf α) := do
  Res.assrt (X.dims.length = 2)
  Res.assrt (Y.dims.length = 2)
  let a ← Res.get X.dims 1
  let b ← Res.get Y.dims 1
  Res.assrt (a = b)
  let Yt ← Y.transp
  let (B, m) ← TFun.mprod (qs 0) X Yt m
  let Bt ← B.transp
  let (BB, m) ← TFun.mprod (qs 1) B Bt m
  let n ← Res.get B.dims 0
  let I := View.new (qs 2) [n, n]
  let m ← loop n (allocZero m (qs 2) (n * n)) fun i m => do
    let c ← I.addr [i, i]
    m.write c 1
  let (D, m) ← TFun.minus (qs 3) BB I m
  let (M, nc, m) ← complementSpace (fun a => a) root big D (qs 4) (qs 5) m
  let C ← columnView M nc
  assignDefault C.dims
  .ok (C, m)

/-! ### connected components -/

/-- tensors/functions/BlockDiagonalize.hpp:63-79 `grow_component(comp,x)`: while a node `y` with `condition(x,y)` is left, the first
such `y` is moved from `nodes` to `comp` and the component grown from it.  `set<int>` is the list of its elements in order.  `fuel` is
never used up (`.ub` otherwise). -/
def grow (cond : Nat → Nat → Bool) : Nat → List Nat → Nat → List Nat → Res (List Nat × List Nat)
  | 0, _, _, _ => .ub
  | f + 1, comp, x, nodes =>
    match nodes.find? (cond x) with
    | none => .ok (comp, nodes)
    | some y => do
      let (comp, nodes) ← grow cond f (comp ++ [y]) y (nodes.erase y)
      grow cond f comp x nodes

/-- tensors/functions/BlockDiagonalize.hpp:46-55, the constructor from a set. -/
def components (cond : Nat → Nat → Bool) : Nat → List Nat → Res (List (List Nat))
  | _, [] => .ok []
  | 0, _ => .ub
  | f + 1, x :: nodes => do
    let (comp, nodes) ← grow cond (nodes.length + 1) [x] x nodes
    let rest ← components cond f nodes
    .ok (comp :: rest)

/-- tensors/functions/BlockDiagonalize.hpp:24-29 `range_set` and 57-58, the constructor from a number of nodes. -/
def componentsOf (cond : Nat → Nat → Bool) (n : Nat) : Res (List (List Nat)) := components cond n (List.range n)

end Space
end Cnine
