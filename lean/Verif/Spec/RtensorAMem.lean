import Verif.Model.RtensorAMem
import Verif.Spec.RtensorA

/-!
# Tensors as values

The same programs on variables that hold sizes and entries.  `ub` stands for what is not claimed: reading a tensor that was moved from, views, reshaping, assignment to
itself, growing a tensor whose rows have no entries.
-/

namespace Cnine

variable {α : Type}

namespace RAM

/-- Sizes and entries; no entries after the tensor was moved from. -/
structure Val (α : Type) where
  dims : List Nat
  data : Option (List α)

/-- The value of a variable is replaced. -/
def vput (t : Nat → Option (Val α)) (v : Nat) (x : Option (Val α)) : Nat → Option (Val α) := fun w => if w = v then x else t w

/-- What a command should do. -/
def vstep (t : Nat → Option (Val α)) : Cmd α → Res (Nat → Option (Val α))
  | .new v dims f => if t v = none ∧ dims ≠ [] then .ok (vput t v (some ⟨dims, some ((List.range dims.prod).map f)⟩)) else .ub
  | .copy v w =>
    match t v, t w with
    | none, some ⟨d, some l⟩ => .ok (vput t v (some ⟨d, some l⟩))
    | _, _ => .ub
  | .move v w =>
    match t v, t w with
    | none, some x => .ok (vput (vput t v (some x)) w (some ⟨x.dims, none⟩))
    | _, _ => .ub
  | .assign v w =>
    if v = w then .ub else
      match t v, t w with
      | some _, some ⟨d, some l⟩ => .ok (vput t v (some ⟨d, some l⟩))
      | _, _ => .ub
  | .moveAssign v w =>
    if v = w then .ub else
      match t v, t w with
      | some _, some x => .ok (vput (vput t v (some x)) w (some ⟨x.dims, none⟩))
      | _, _ => .ub
  | .reserve v _ =>
    match t v with
    | some ⟨d, some _⟩ => if d.tail.prod = 0 then .ub else .ok t
    | _ => .ub
  | .push v w =>
    match t v, t w with
    | some ⟨d, some l⟩, some ⟨e, some k⟩ =>
      if d.tail ≠ e then .throw
      else if e.prod = 0 then .ub
      else .ok (vput t v (some ⟨(d.headD 0 + 1) :: e, some (l ++ k)⟩))
    | _, _ => .ub
  | .setCell v i a =>
    match t v with
    | some ⟨d, some l⟩ => if i < l.length then .ok (vput t v (some ⟨d, some (l.set i a)⟩)) else .ub
    | _ => .ub
  | .destroy v =>
    match t v with
    | some _ => .ok (vput t v none)
    | none => .ub
  | .view _ _ => .ub
  | .slice0 _ _ _ => .ub
  | .reshape _ _ => .ub

/-- What a program should do. -/
def vrun (t : Nat → Option (Val α)) (p : List (Cmd α)) : Res (Nat → Option (Val α)) := Res.forM p t vstep

/-- Block `b` is allocated. -/
def liveAt (h : List (Option (List α))) (b : Nat) : Prop := ∃ l, h[b]? = some (some l)

/-- The pointer an object has to release. -/
def own : Option Obj → Option (Nat × Nat)
  | some o => if o.isView then none else o.ptr
  | none => none

/-- Each allocated block has exactly one tensor that releases it, at its start. -/
structure Sound (L : Nat → Prop) (vars : Nat → Option Obj) : Prop where
  live : ∀ v p, own (vars v) = some p → p.2 = 0 ∧ L p.1
  one : ∀ v w p q, own (vars v) = some p → own (vars w) = some q → p.1 = q.1 → v = w
  all : ∀ b, L b → ∃ v p, own (vars v) = some p ∧ p.1 = b

/-- The object `o` has the value `x`. -/
structure Means (h : List (Option (List α))) (o : Obj) (x : Val α) : Prop where
  owner : o.isView = false
  dims : o.dims = x.dims
  ne : x.dims ≠ []
  strides : o.strides = x.dims.tails.tail.map List.prod
  asize : o.asize = x.dims.prod
  room : x.dims.prod ≤ o.memsize
  data : match x.data with
    | none => o.ptr = none
    | some l => l.length = x.dims.prod ∧ ∃ b B, o.ptr = some (b, 0) ∧ h[b]? = some (some B) ∧ o.memsize ≤ B.length ∧ B.take x.dims.prod = l

/-- The variables have these values. -/
def Matches (s : State α) (t : Nat → Option (Val α)) : Prop :=
  ∀ v, match s.vars v, t v with
    | none, none => True
    | some o, some x => Means s.heap o x
    | _, _ => False

end RAM

end Cnine
