import Verif.Model.Devices
import Verif.Spec.Elem

/-!
# What copies between devices should do
-/

namespace Cnine

variable {α : Type}

namespace Dev

/-- No cell at or above the ends of the memories is in use. -/
def Mems.Ok (m : Mems α) : Prop := ∀ d c, m.top d ≤ c → m.buf d c = none

/-- The tensor holds the entries `f`. -/
def Holds (m : Mems α) (x : DV) (f : List Nat → α) : Prop := x.v.WF ∧ ∀ ix, InRange ix x.v.dims → m.buf x.dev (x.v.cell ix) = some (f ix)

/-- The cells in use in `m` are in use in `m'`, unchanged. -/
def Keeps (m m' : Mems α) : Prop := ∀ d, m.top d ≤ m'.top d ∧ ∀ c, c < m.top d → m'.buf d c = m.buf d c

/-- `kern` is an outcome of the launches, for whichever views and memory. -/
def Picks [Add α] (kern : View → View → Buf α → Res (Buf α)) : Prop := ∀ r x m, Gpu.Out (cuAssign r x) m (kern r x m)

/-- Sizes that the kernels handle (C422, C424, C426). -/
def Handled : List Nat → Prop
  | [n] => n ≤ 2147483647 ∧ (n < 1024 ∨ (1024 < n ∧ n % 1024 = 0))
  | [n, k] => n ≤ 2147483647 ∧ (k ≤ 1024 ∨ (k % 1024 = 0 ∧ k < 65536 * 1024))
  | [n, k, l] => n ≤ 2147483647 ∧ k ≤ 65535 ∧ (n * k * l < 128 → l ≤ 64) ∧ (l ≤ 1024 ∨ (l % 1024 = 0 ∧ l < 65536 * 1024))
  | _ => False

/-- `ds'` comes from `ds` by taking products of groups of neighbours. -/
def Grouped (ds ds' : List Nat) : Prop := ∃ parts : List (List Nat), (∀ p ∈ parts, p ≠ []) ∧ parts.flatten = ds ∧ parts.map List.prod = ds'

end Dev

end Cnine
