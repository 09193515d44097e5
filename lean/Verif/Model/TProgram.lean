import Verif.Model.GatherRows
import Verif.Model.Rows

/-!
# Model of tensor programs

hpc/TensorProgram.hpp and hpc/TensorProgramHelpers.hpp.  A program has variables (shapes) and instructions "variable `out` gains
the operation `map` of variable `in`".  The operation is a parameter, as in the code; `GatherRows` with `GatherMapB` is the one used.
Sizes of variables are natural numbers.
-/

namespace Cnine

variable {α M : Type}

namespace TProg

/-- hpc/TensorProgramHelpers.hpp:51-68: one instruction.  The constructors copy the map (67-68) or share it (61-65). -/
structure Instr (M : Type) where
  inp : Int
  out : Int
  map : M

/-- hpc/TensorProgramHelpers.hpp:70-72 `inv()`. -/
def Instr.inv (mapInv : M → Res M) (e : Instr M) : Res (Instr M) := do
  let m ← mapInv e.map
  .ok { map := m, out := e.inp, inp := e.out }

end TProg

/-- hpc/TensorProgram.hpp:32-44. -/
structure TProg (M : Type) where
  inputvar : Nat := 0
  outputvar : Nat := 1
  ncFromOutput : Bool := false
  vars : List (List Nat)
  instrs : List (TProg.Instr M)

namespace TProg

/-- hpc/TensorProgram.hpp:49-52. -/
def make (outDims inDims : List Nat) : TProg M := { vars := [inDims, outDims], instrs := [] }

/-- hpc/TensorProgram.hpp:70-73 `add_var(dims)`. -/
def addVar (p : TProg M) (d : List Nat) : TProg M × Nat := ({ p with vars := p.vars ++ [d] }, p.vars.length)

/-- hpc/TensorProgram.hpp:75-81 `add_map(map,out,in)`. -/
def addMap (p : TProg M) (g : M) (out inp : Int) : TProg M := { p with instrs := p.instrs ++ [⟨inp, out, g⟩] }

/-- hpc/TensorProgram.hpp:54-58 (= 60-64). -/
def ofMap (outDims inDims : List Nat) (g : M) : TProg M := (make outDims inDims).addMap g 1 0

/-- `x.back()`; undefined for an empty vector. -/
def back (l : List Nat) : Res Nat := match l.getLast? with
  | some a => .ok a
  | none => .ub

/-- hpc/TensorProgram.hpp:195-199 `scale_last(x,nc)`. -/
def scaleLast (x : List Nat) (nc : Nat) : Res (List Nat) := do
  let b ← back x
  .ok (x.dropLast ++ [b * nc])

/-- hpc/TensorProgram.hpp:95-99: the quotient of two last sizes. -/
def ratio (x d : List Nat) : Res Nat := do
  let a ← back x
  let b ← back d
  Res.need (b ≠ 0)
  .ok (a / b)

/-- The tensors made with `new`, in order, and the pointers kept in the vector `v` (hpc/TensorProgram.hpp:107). -/
structure Heap where
  objs : List View
  ptr : List (Option Nat)

/-- `v[i]=new Ltensor(t)`. -/
def Heap.new (h : Heap) (i : Nat) (t : View) : Heap := ⟨h.objs ++ [t], h.ptr.set i (some h.objs.length)⟩

/-- `*v[i]`. -/
def Heap.at (h : Heap) (i : Int) : Res View :=
  match h.ptr[i.toNat]? with
  | some (some k) => Res.get h.objs k
  | _ => .ub

/-- The tensors that are not deleted by hpc/TensorProgram.hpp:124-125 `for(auto p:v) delete p`. -/
def Heap.leaked (h : Heap) : List View :=
  ((List.range h.objs.length).filter fun k => !h.ptr.contains (some k)).map fun k => h.objs.getD k ⟨0, [], []⟩

/-- hpc/TensorProgram.hpp:111-116: one round of the loop; a new temporary of variable `i` starts at `q i` and is set to zero. -/
def slot [Zero α] (p : TProg M) (q : Nat → Nat) (nc : Nat) (output input : View) (i : Nat) (s : Heap × Buf α) :
    Res (Heap × Buf α) := do
  let h := if i = p.inputvar then s.1.new i input else s.1
  let h := if i = p.outputvar then h.new i output else h
  if i ≠ p.inputvar ∧ i ≠ p.outputvar then
    let d ← Res.get p.vars i
    let d ← scaleLast d nc
    .ok (h.new i ⟨q i, d, rmStrides d⟩, allocZero s.2 (q i) (asize d))
  else .ok (h, s.2)

/-- The memory of a deleted temporary is given back. -/
def freeBlock (m : Buf α) (q n : Nat) : Buf α := fun c => if q ≤ c ∧ c < q + n then none else m c

/-- hpc/TensorProgram.hpp:124-125 for the memory: the temporaries own theirs alone. -/
def cleanup (p : TProg M) (q : Nat → Nat) (nc : Nat) (i : Nat) (m : Buf α) : Res (Buf α) :=
  if i ≠ p.inputvar ∧ i ≠ p.outputvar then do
    let d ← Res.get p.vars i
    let d ← scaleLast d nc
    .ok (freeBlock m (q i) (asize d))
  else .ok m

/-- hpc/TensorProgram.hpp:118-122: one instruction. -/
def exec (op : M → View → View → Buf α → Res (Buf α)) (n : Nat) (h : Heap) (e : Instr M) (m : Buf α) : Res (Buf α) := do
  Res.assrt (decide (0 ≤ e.out ∧ e.out < n))
  Res.assrt (decide (0 ≤ e.inp ∧ e.inp < n))
  let r ← h.at e.out
  let x ← h.at e.inp
  op e.map r x m

/-- hpc/TensorProgram.hpp:95-99: the common factor of the last sizes. -/
def factor (p : TProg M) (output input : View) (dr di : List Nat) : Res Nat :=
  if p.ncFromOutput then ratio output.dims dr else ratio input.dims di

/-- hpc/TensorProgram.hpp:87-105: the checks; returns `nc`. -/
def check (p : TProg M) (output input : View) : Res Nat := do
  Res.assrt (decide (p.inputvar < p.vars.length))
  Res.assrt (decide (p.outputvar < p.vars.length))
  let di ← Res.get p.vars p.inputvar
  let dr ← Res.get p.vars p.outputvar
  let nc ← factor p output input dr di
  Res.assrt (decide (input.dims.length = di.length))
  let si ← scaleLast di nc
  Res.assrt (decide (input.dims = si))
  Res.assrt (decide (output.dims.length = dr.length))
  let sr ← scaleLast dr nc
  Res.assrt (decide (output.dims = sr))
  .ok nc

/-- hpc/TensorProgram.hpp:87-126 on the host: the memory afterwards and the tensor objects that are never deleted. -/
def run [Zero α] (op : M → View → View → Buf α → Res (Buf α)) (p : TProg M) (q : Nat → Nat) (output input : View) (m : Buf α) :
    Res (Buf α × List View) := do
  let nc ← check p output input
  let h : Heap := ⟨[], List.replicate p.vars.length none⟩
  let h := h.new p.inputvar input
  let h := h.new p.outputvar output
  let s ← loop p.vars.length (h, m) fun i s => slot p q nc output input i s
  let m ← Res.forM p.instrs s.2 fun m e => exec op p.vars.length s.1 e m
  let m ← loop p.vars.length m fun i m => cleanup p q nc i m
  .ok (m, s.1.leaked)

/-- `R.instructions[i]=instructions[n-1-i].inv()` (hpc/TensorProgram.hpp:136-139), on the reversed list. -/
def invAll (mapInv : M → Res M) : List (Instr M) → Res (List (Instr M))
  | [] => .ok []
  | e :: es => do
    let a ← e.inv mapInv
    let r ← invAll mapInv es
    .ok (a :: r)

/-- hpc/TensorProgram.hpp:129-142 `inv()`. -/
def inv (mapInv : M → Res M) (p : TProg M) : Res (TProg M) := do
  let _ ← Res.get p.vars p.inputvar
  let _ ← Res.get p.vars p.outputvar
  let es ← invAll mapInv p.instrs.reverse
  .ok { inputvar := p.outputvar, outputvar := p.inputvar, ncFromOutput := !p.ncFromOutput, vars := p.vars, instrs := es }

/-- The program with `GatherRows` (hpc/GatherRows.hpp:40-83) and maps without fixed-k parts. -/
def gatherRows [Add α] (g : GMap) (r x : View) (m : Buf α) : Res (Buf α) := GatherRows.gather g [] r x m

end TProg

end Cnine
