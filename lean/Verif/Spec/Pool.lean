/-!
# What the pools are meant to be

A pool is a list of rows.  Each row has contents and the room reserved for it; `none` stands for an entry
that was never written.
-/

namespace Cnine.PoolSpec

structure Row (α : Type _) where
  room : Nat
  cells : List (Option α)
  deriving Repr, DecidableEq

/-- A row without spare room, all of whose entries are known. -/
def Row.full {α} (v : List α) : Row α := ⟨v.length, v.map some⟩

/-- Operations on a pool. -/
inductive Op (α : Type _) where
  | pushLen (n : Nat)
  | pushVec (v : List α)
  | set (i j : Nat) (v : α)
  | append (i : Nat) (v : α)
  | copy

/-- The effect of an operation, `none` when it has to be reported as an error. -/
def step {α} : Op α → List (Row α) → Option (List (Row α))
  | .pushLen n, rows => some (rows ++ [⟨n, List.replicate n none⟩])
  | .pushVec v, rows => some (rows ++ [Row.full v])
  | .set i j v, rows =>
    match rows[i]? with
    | none => none
    | some r =>
      if j < r.cells.length then some (rows.set i { r with cells := r.cells.set j (some v) }) else none
  | .append i v, rows =>
    match rows[i]? with
    | none => none
    | some r =>
      if r.cells.length < r.room then some (rows.set i { r with cells := r.cells ++ [some v] }) else none
  | .copy, rows => some rows

/-- A history: the resulting rows, and for each operation whether it was accepted. -/
def run {α} : List (Op α) → List (Row α) → List (Row α) × List Bool
  | [], rows => (rows, [])
  | o :: l, rows =>
    match step o rows with
    | some rows' => let r := run l rows'; (r.1, true :: r.2)
    | none => let r := run l rows; (r.1, false :: r.2)

end Cnine.PoolSpec

namespace Cnine.HeadSpec

/-- A headed list: head, contents, and the number of entries there is room for. -/
structure HRow (α : Type _) where
  head : Option α
  room : Nat
  cells : List (Option α)
  deriving Repr, DecidableEq

/-- A headed list without spare room, with known head and entries. -/
def HRow.full {α} (h : α) (v : List α) : HRow α := ⟨some h, v.length, v.map some⟩

/-- Operations on headed lists. -/
inductive Op (α : Type _) where
  | pushLen (n : Nat)
  | pushVec (h : α) (v : List α)
  | setHead (i : Nat) (v : α)
  | set (i j : Nat) (v : α)
  | append (i : Nat) (v : α)
  | copy

/-- The effect of an operation, `none` when it has to be reported as an error. -/
def step {α} : Op α → List (HRow α) → Option (List (HRow α))
  | .pushLen n, rows => some (rows ++ [⟨none, n, List.replicate n none⟩])
  | .pushVec h v, rows => some (rows ++ [HRow.full h v])
  | .setHead i v, rows =>
    match rows[i]? with
    | none => none
    | some r => some (rows.set i { r with head := some v })
  | .set i j v, rows =>
    match rows[i]? with
    | none => none
    | some r =>
      if j < r.cells.length then some (rows.set i { r with cells := r.cells.set j (some v) }) else none
  | .append i v, rows =>
    match rows[i]? with
    | none => none
    | some r =>
      if r.cells.length < r.room then some (rows.set i { r with cells := r.cells ++ [some v] }) else none
  | .copy, rows => some rows

/-- A history: the resulting rows, and for each operation whether it was accepted. -/
def run {α} : List (Op α) → List (HRow α) → List (HRow α) × List Bool
  | [], rows => (rows, [])
  | o :: l, rows =>
    match step o rows with
    | some rows' => let r := run l rows'; (r.1, true :: r.2)
    | none => let r := run l rows; (r.1, false :: r.2)

end Cnine.HeadSpec
