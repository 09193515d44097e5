import Verif.Model.GpuEin
import Verif.Spec.GpuConv

/-!
# Where the entries of the factors of a product lie
-/

namespace Cnine

namespace Gpu

/-- The entries with one index. -/
def Ptr.at1 (x : Ptr) (i : Nat) : Nat := x.arr + x.s0 * i

/-- The entries with two indices. -/
def Ptr.at2 (x : Ptr) (q : Nat × Nat) : Nat := x.arr + (x.s0 * q.1 + x.s1 * q.2)

/-- The entries with three indices. -/
def Ptr.at3 (x : Ptr) (q : Nat × Nat × Nat) : Nat := x.arr + (x.s0 * q.1 + x.s1 * q.2.1 + x.s2 * q.2.2)

/-- The entries with four indices. -/
def Ptr.at4 (x : Ptr) (q : Nat × Nat × Nat × Nat) : Nat := x.arr + (x.s0 * q.1 + x.s1 * q.2.1 + x.s2 * q.2.2.1 + x.s3 * q.2.2.2)

/-- The entries with five indices. -/
def Ptr.at5 (x : Ptr) (q : Nat × Nat × Nat × Nat × Nat) : Nat := x.arr + (x.s0 * q.1 + x.s1 * q.2.1 + x.s2 * q.2.2.1 + x.s3 * q.2.2.2.1 + x.s4 * q.2.2.2.2)

/-- The entries of a tensor with four axes. -/
def box4 (n0 n1 n2 n3 : Nat) (q : Nat × Nat × Nat × Nat) : Prop := q.1 < n0 ∧ q.2.1 < n1 ∧ q.2.2.1 < n2 ∧ q.2.2.2 < n3

/-- The entries of a tensor with five axes. -/
def box5 (n0 n1 n2 n3 n4 : Nat) (q : Nat × Nat × Nat × Nat × Nat) : Prop := q.1 < n0 ∧ q.2.1 < n1 ∧ q.2.2.1 < n2 ∧ q.2.2.2.1 < n3 ∧ q.2.2.2.2 < n4

end Gpu

end Cnine
