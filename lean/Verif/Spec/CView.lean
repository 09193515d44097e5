import Verif.Model.CView

/-!
# What complex views contain

Statements about the entries of complex views, used by the properties: `Has` (the entries), `Sep` (different parts lie in different
cells), `Cov` (the cells of a view) and `Match` (where an argument may share cells with the result).
-/

namespace Cnine

variable {α : Type}

namespace CV1

/-- The entries of `v` are `X`. -/
def Has (v : CV1) (m : Buf α) (X : Nat → Cx α) : Prop :=
  ∀ i, i < v.n0 → m (v.arr + v.off i) = some (X i).re ∧ m (v.arrc + v.off i) = some (X i).im

/-- Different entries, and the two parts of an entry, lie in different cells. -/
def Sep (v : CV1) : Prop :=
  ∀ i, i < v.n0 → ∀ a, a < v.n0 → 
    (v.off i = v.off a → i = a) ∧ v.arr + v.off i ≠ v.arrc + v.off a

/-- `c` is a cell of `v`. -/
def Cov (v : CV1) (c : Nat) : Prop :=
  ∃ i, i < v.n0 ∧ (c = v.arr + v.off i ∨ c = v.arrc + v.off i)

/-- A cell of `x` that is a cell of `r` is the same part of the same entry. -/
def Match (r x : CV1) : Prop :=
  ∀ i, i < r.n0 → ∀ a, a < x.n0 → 
    (r.arr + r.off i = x.arr + x.off a → i = a) ∧ (r.arrc + r.off i = x.arrc + x.off a → i = a) ∧
      r.arr + r.off i ≠ x.arrc + x.off a ∧ r.arrc + r.off i ≠ x.arr + x.off a

end CV1

namespace CV2

/-- The entries of `v` are `X`. -/
def Has (v : CV2) (m : Buf α) (X : Nat → Nat → Cx α) : Prop :=
  ∀ i, i < v.n0 → ∀ j, j < v.n1 → m (v.arr + v.off i j) = some (X i j).re ∧ m (v.arrc + v.off i j) = some (X i j).im

/-- Different entries, and the two parts of an entry, lie in different cells. -/
def Sep (v : CV2) : Prop :=
  ∀ i, i < v.n0 → ∀ j, j < v.n1 → ∀ a, a < v.n0 → ∀ b, b < v.n1 → 
    (v.off i j = v.off a b → i = a ∧ j = b) ∧ v.arr + v.off i j ≠ v.arrc + v.off a b

/-- `c` is a cell of `v`. -/
def Cov (v : CV2) (c : Nat) : Prop :=
  ∃ i, i < v.n0 ∧ ∃ j, j < v.n1 ∧ (c = v.arr + v.off i j ∨ c = v.arrc + v.off i j)

/-- A cell of `x` that is a cell of `r` is the same part of the same entry. -/
def Match (r x : CV2) : Prop :=
  ∀ i, i < r.n0 → ∀ j, j < r.n1 → ∀ a, a < x.n0 → ∀ b, b < x.n1 → 
    (r.arr + r.off i j = x.arr + x.off a b → i = a ∧ j = b) ∧ (r.arrc + r.off i j = x.arrc + x.off a b → i = a ∧ j = b) ∧
      r.arr + r.off i j ≠ x.arrc + x.off a b ∧ r.arrc + r.off i j ≠ x.arr + x.off a b

end CV2

namespace CV3

/-- The entries of `v` are `X`. -/
def Has (v : CV3) (m : Buf α) (X : Nat → Nat → Nat → Cx α) : Prop :=
  ∀ i, i < v.n0 → ∀ j, j < v.n1 → ∀ k, k < v.n2 → m (v.arr + v.off i j k) = some (X i j k).re ∧ m (v.arrc + v.off i j k) = some (X i j k).im

/-- Different entries, and the two parts of an entry, lie in different cells. -/
def Sep (v : CV3) : Prop :=
  ∀ i, i < v.n0 → ∀ j, j < v.n1 → ∀ k, k < v.n2 → ∀ a, a < v.n0 → ∀ b, b < v.n1 → ∀ c, c < v.n2 → 
    (v.off i j k = v.off a b c → i = a ∧ j = b ∧ k = c) ∧ v.arr + v.off i j k ≠ v.arrc + v.off a b c

/-- `c` is a cell of `v`. -/
def Cov (v : CV3) (c : Nat) : Prop :=
  ∃ i, i < v.n0 ∧ ∃ j, j < v.n1 ∧ ∃ k, k < v.n2 ∧ (c = v.arr + v.off i j k ∨ c = v.arrc + v.off i j k)

/-- A cell of `x` that is a cell of `r` is the same part of the same entry. -/
def Match (r x : CV3) : Prop :=
  ∀ i, i < r.n0 → ∀ j, j < r.n1 → ∀ k, k < r.n2 → ∀ a, a < x.n0 → ∀ b, b < x.n1 → ∀ c, c < x.n2 → 
    (r.arr + r.off i j k = x.arr + x.off a b c → i = a ∧ j = b ∧ k = c) ∧ (r.arrc + r.off i j k = x.arrc + x.off a b c → i = a ∧ j = b ∧ k = c) ∧
      r.arr + r.off i j k ≠ x.arrc + x.off a b c ∧ r.arrc + r.off i j k ≠ x.arr + x.off a b c

end CV3

namespace CV4

/-- The entries of `v` are `X`. -/
def Has (v : CV4) (m : Buf α) (X : Nat → Nat → Nat → Nat → Cx α) : Prop :=
  ∀ i, i < v.n0 → ∀ j, j < v.n1 → ∀ k, k < v.n2 → ∀ l, l < v.n3 → m (v.arr + v.off i j k l) = some (X i j k l).re ∧ m (v.arrc + v.off i j k l) = some (X i j k l).im

/-- Different entries, and the two parts of an entry, lie in different cells. -/
def Sep (v : CV4) : Prop :=
  ∀ i, i < v.n0 → ∀ j, j < v.n1 → ∀ k, k < v.n2 → ∀ l, l < v.n3 → ∀ a, a < v.n0 → ∀ b, b < v.n1 → ∀ c, c < v.n2 → ∀ d, d < v.n3 → 
    (v.off i j k l = v.off a b c d → i = a ∧ j = b ∧ k = c ∧ l = d) ∧ v.arr + v.off i j k l ≠ v.arrc + v.off a b c d

/-- `c` is a cell of `v`. -/
def Cov (v : CV4) (c : Nat) : Prop :=
  ∃ i, i < v.n0 ∧ ∃ j, j < v.n1 ∧ ∃ k, k < v.n2 ∧ ∃ l, l < v.n3 ∧ (c = v.arr + v.off i j k l ∨ c = v.arrc + v.off i j k l)

/-- A cell of `x` that is a cell of `r` is the same part of the same entry. -/
def Match (r x : CV4) : Prop :=
  ∀ i, i < r.n0 → ∀ j, j < r.n1 → ∀ k, k < r.n2 → ∀ l, l < r.n3 → ∀ a, a < x.n0 → ∀ b, b < x.n1 → ∀ c, c < x.n2 → ∀ d, d < x.n3 → 
    (r.arr + r.off i j k l = x.arr + x.off a b c d → i = a ∧ j = b ∧ k = c ∧ l = d) ∧ (r.arrc + r.off i j k l = x.arrc + x.off a b c d → i = a ∧ j = b ∧ k = c ∧ l = d) ∧
      r.arr + r.off i j k l ≠ x.arrc + x.off a b c d ∧ r.arrc + r.off i j k l ≠ x.arr + x.off a b c d

end CV4

end Cnine
