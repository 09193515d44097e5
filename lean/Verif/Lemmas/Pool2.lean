import Verif.Lemmas.Pool
import Verif.Spec.Pool

/-! # The representation invariant of `array_pool` -/

namespace Cnine

open PoolSpec

variable {α : Type _}

/-- Offset of row `k` in the pool's memory. -/
def off (rows : List (Row α)) (k : Nat) : Nat := ((rows.take k).map Row.room).sum

theorem off_zero (rows : List (Row α)) : off rows 0 = 0 := by simp [off]

theorem off_succ {rows : List (Row α)} {k : Nat} {r : Row α} (h : rows[k]? = some r) :
    off rows (k + 1) = off rows k + r.room := by
  unfold off
  rw [List.take_add_one, h]
  simp

theorem off_mono {rows : List (Row α)} {k l : Nat} (h : k ≤ l) : off rows k ≤ off rows l := by
  induction l with
  | zero => obtain rfl : k = 0 := by omega
            exact Nat.le_refl _
  | succ l ih =>
    by_cases e : k = l + 1
    · subst e; exact Nat.le_refl _
    · refine Nat.le_trans (ih (by omega)) ?_
      cases hr : rows[l]? with
      | none =>
        unfold off
        rw [List.take_add_one, hr]
        simp
      | some r => rw [off_succ hr]; omega

theorem off_append {rows : List (Row α)} (s : List (Row α)) {k : Nat} (h : k ≤ rows.length) :
    off (rows ++ s) k = off rows k := by
  unfold off
  rw [List.take_append_of_le_length h]

theorem off_append_len (rows s : List (Row α)) (k : Nat) :
    off (rows ++ s) (rows.length + k) = off rows rows.length + off s k := by
  unfold off
  rw [List.take_append, List.take_of_length_le (by omega : rows.length ≤ rows.length + k)]
  simp

theorem off_set {rows : List (Row α)} {i : Nat} {r r' : Row α} (h : rows[i]? = some r)
    (e : r'.room = r.room) (k : Nat) : off (rows.set i r') k = off rows k := by
  unfold off
  rw [List.map_take, List.map_take, List.map_set, e]
  congr 2
  apply List.ext_getElem?
  intro j
  rw [List.getElem?_set]
  by_cases a : i = j
  · subst a
    obtain ⟨hi, hr⟩ := List.getElem?_eq_some_iff.mp h
    rw [if_pos rfl, if_pos (by simpa using hi)]
    simp [h]
  · rw [if_neg a]

namespace Pool

/-- The pool has a directory of `n` rows, of which the first are filled and describe `rows`. -/
structure Part (p : Pool α) (n : Nat) (rows : List (Row α)) : Prop where
  dir : p.dir.Fits n
  le : rows.length ≤ n
  tail : p.tail = off rows rows.length
  mem : p.tail ≤ p.memsize
  arr : p.memsize ≤ p.arr.length
  fit : ∀ r ∈ rows, r.cells.length ≤ r.room
  dir0 : ∀ k r, rows[k]? = some r → p.dir.arr[2 * k]? = some (some (off rows k : Int))
  dir1 : ∀ k r, rows[k]? = some r → p.dir.arr[2 * k + 1]? = some (some (r.cells.length : Int))
  cells : ∀ k r j v, rows[k]? = some r → r.cells[j]? = some (some v) → p.arr[off rows k + j]? = some (some v)

/-- The pool represents `rows`. -/
def Holds (p : Pool α) (rows : List (Row α)) : Prop := p.Part rows.length rows

theorem Part.bound {p : Pool α} {n : Nat} {rows : List (Row α)} (h : p.Part n rows) {k j : Nat} {r : Row α}
    (hk : rows[k]? = some r) (hj : j < r.room) : off rows k + j < off rows rows.length := by
  have hlt : k < rows.length := (List.getElem?_eq_some_iff.mp hk).1
  have := off_mono (rows := rows) (show k + 1 ≤ rows.length by omega)
  rw [off_succ hk] at this
  omega

theorem Part.fit' {p : Pool α} {n : Nat} {rows : List (Row α)} (h : p.Part n rows) {k : Nat} {r : Row α}
    (hk : rows[k]? = some r) : r.cells.length ≤ r.room := h.fit r (List.mem_of_getElem? hk)

theorem holds_empty : (Pool.empty : Pool α).Holds [] where
  dir := Dir.fits_noalloc
  le := by simp
  tail := by simp [Pool.empty, off]
  mem := by simp [Pool.empty]
  arr := by simp [Pool.empty]
  fit := by simp
  dir0 := by simp
  dir1 := by simp
  cells := by simp

theorem part_reserved (n t : Nat) : (Pool.reserved n t : Pool α).Part n [] where
  dir := Dir.fits_raw n
  le := by simp
  tail := by simp [Pool.reserved, off]
  mem := by simp [Pool.reserved]
  arr := by simp only [Pool.reserved, Arr.length_alloc]; omega
  fit := by simp
  dir0 := by simp
  dir1 := by simp
  cells := by simp

theorem reserve_ok {p : Pool α} {n : Nat} {rows : List (Row α)} (h : p.Part n rows) (m : Int) :
    ∃ p', p.reserve m = .ok p' ∧ p'.dir = p.dir ∧ p'.tail = p.tail ∧ m ≤ p'.memsize ∧
      p.memsize ≤ p'.memsize ∧ p'.memsize ≤ p'.arr.length ∧
      ∀ k : Nat, (k : Int) < p.memsize → p'.arr[k]? = p.arr[k]? := by
  have h0 := h.tail
  have h1 := h.mem
  have h2 := h.arr
  unfold reserve
  by_cases c : m ≤ p.memsize
  · rw [if_pos c]
    exact ⟨p, rfl, rfl, rfl, c, Int.le_refl _, h2, fun _ _ => rfl⟩
  · rw [if_neg c]
    by_cases e : p.arr = []
    · rw [if_pos e, Res.ok_bind]
      have : p.arr.length = 0 := by rw [e]; rfl
      refine ⟨_, rfl, rfl, rfl, Int.le_refl _, by dsimp only; omega, ?_, ?_⟩
      · dsimp only; rw [Arr.length_alloc]; omega
      · intro k hk; omega
    · rw [if_neg e]
      obtain ⟨b, hb, hl, hk⟩ := Arr.copy_ok p.arr (Arr.alloc m) p.memsize.toNat 0 (by omega)
        (by rw [Arr.length_alloc]; omega)
      rw [Int.toNat_of_nonneg (by omega)] at hb
      have hb' : p.arr.copy p.memsize (Arr.alloc m) 0 = .ok b := hb
      rw [hb', Res.ok_bind]
      refine ⟨_, rfl, rfl, rfl, Int.le_refl _, by dsimp only; omega, ?_, ?_⟩
      · dsimp only; rw [hl, Arr.length_alloc]; omega
      · intro k hk'
        dsimp only
        rw [hk k, if_pos (by omega), Nat.sub_zero]

theorem grow_ok {p : Pool α} {n : Nat} {rows : List (Row α)} (h : p.Part n rows) (len : Nat) :
    ∃ p', p.grow len = .ok p' ∧ p'.dir = p.dir ∧ p'.tail = p.tail ∧ p.tail + len ≤ p'.memsize ∧
      p'.memsize ≤ p'.arr.length ∧ ∀ k : Nat, (k : Int) < p.memsize → p'.arr[k]? = p.arr[k]? := by
  have h1 := h.mem
  unfold grow
  by_cases c : p.tail + (len : Int) > p.memsize
  · rw [if_pos c]
    obtain ⟨p', e1, e2, e3, e4, e5, e6, e7⟩ := reserve_ok h (max (2 * p.memsize) (p.tail + len))
    exact ⟨p', e1, e2, e3, by omega, e6, e7⟩
  · rw [if_neg c]
    exact ⟨p, rfl, rfl, rfl, by omega, h.arr, fun _ _ => rfl⟩

/-- A new row at the end: the common part of all constructors and append operations. -/
theorem part_snoc {p p' : Pool α} {n n' : Nat} {rows : List (Row α)} (h : p.Part n rows) (r : Row α)
    (hdir : p'.dir.Fits n') (hn' : rows.length + 1 ≤ n')
    (htail : p'.tail = p.tail + r.room) (hmem : p'.tail ≤ p'.memsize) (harr : p'.memsize ≤ p'.arr.length)
    (hfit : r.cells.length ≤ r.room)
    (hd0 : p'.dir.arr[2 * rows.length]? = some (some p.tail))
    (hd1 : p'.dir.arr[2 * rows.length + 1]? = some (some (r.cells.length : Int)))
    (hd : ∀ k < 2 * rows.length, p'.dir.arr[k]? = p.dir.arr[k]?)
    (hc : ∀ k : Nat, (k : Int) < p.tail → p'.arr[k]? = p.arr[k]?)
    (hnew : ∀ j v, r.cells[j]? = some (some v) → p'.arr[off rows rows.length + j]? = some (some v)) :
    p'.Part n' (rows ++ [r]) := by
  have hlen : off (rows ++ [r]) (rows.length + 1) = off rows rows.length + r.room := by
    rw [off_append_len]; simp [off]
  have cases' : ∀ k (s : Row α), (rows ++ [r])[k]? = some s →
      (rows[k]? = some s ∧ k < rows.length) ∨ (k = rows.length ∧ s = r) := by
    intro k s hs
    by_cases c : k < rows.length
    · rw [List.getElem?_append_left c] at hs
      exact Or.inl ⟨hs, c⟩
    · rw [List.getElem?_append_right (by omega)] at hs
      right
      have : k - rows.length = 0 := by
        rcases Nat.eq_zero_or_pos (k - rows.length) with h0 | h0
        · exact h0
        · rw [List.getElem?_eq_none (by simp; omega)] at hs
          cases hs
      rw [this] at hs
      simp at hs
      exact ⟨by omega, hs.symm⟩
  refine ⟨hdir, by simpa using hn', ?_, hmem, harr, ?_, ?_, ?_, ?_⟩
  · rw [htail, h.tail, List.length_append, List.length_singleton, hlen]; omega
  · intro s hs
    rcases List.mem_append.mp hs with hs | hs
    · exact h.fit s hs
    · rw [List.mem_singleton.mp hs]; exact hfit
  · intro k s hs
    rcases cases' k s hs with ⟨hs, hk⟩ | ⟨rfl, rfl⟩
    · rw [hd _ (by omega), h.dir0 k s hs, off_append _ (by omega)]
    · rw [hd0, off_append _ (Nat.le_refl _), h.tail]
  · intro k s hs
    rcases cases' k s hs with ⟨hs, hk⟩ | ⟨rfl, rfl⟩
    · rw [hd _ (by omega), h.dir1 k s hs]
    · exact hd1
  · intro k s j v hs hv
    rcases cases' k s hs with ⟨hs, hk⟩ | ⟨rfl, rfl⟩
    · have hj : j < s.cells.length := (List.getElem?_eq_some_iff.mp hv).1
      have hb := h.bound hs (Nat.lt_of_lt_of_le hj (h.fit' hs))
      rw [off_append _ (by omega), hc _ (by rw [h.tail]; omega), h.cells k s j v hs hv]
    · rw [off_append _ (Nat.le_refl _)]
      exact hnew j v hv

end Pool

end Cnine
