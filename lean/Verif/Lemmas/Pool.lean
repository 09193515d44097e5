import Verif.Model.Pool
import Mathlib.Data.List.GetD

/-! # Lemmas about the pool memory -/

namespace Cnine

namespace Arr

variable {α : Type _}

theorem length_alloc (n : Int) : (Arr.alloc n : Arr α).length = (max n 1).toNat := by
  simp [Arr.alloc]

theorem rd_ok {a : Arr α} {i : Nat} {v : α} (h : a[i]? = some (some v)) : a.rd i = .ok v := by
  unfold Arr.rd
  rw [if_neg (by omega), Int.toNat_natCast, h]

theorem rd_ok' {a : Arr α} {i : Int} {k : Nat} {v : α} (e : i = k) (h : a[k]? = some (some v)) :
    a.rd i = .ok v := by
  subst e; exact rd_ok h

theorem wr_ok {a : Arr α} {i : Nat} (v : α) (h : i < a.length) :
    a.wr i v = .ok (a.set i (some v)) := by
  unfold Arr.wr
  rw [if_neg (by omega), Int.toNat_natCast, if_pos h]

theorem wr_ok' {a : Arr α} {i : Int} {k : Nat} (v : α) (e : i = k) (h : k < a.length) :
    a.wr i v = .ok (a.set k (some v)) := by
  subst e; exact wr_ok v h

theorem wrList_ok (l : List α) : ∀ (a : Arr α) (off : Nat), off + l.length ≤ a.length →
    ∃ b, a.wrList off l = .ok b ∧ b.length = a.length ∧
      ∀ k, b[k]? = if off ≤ k ∧ k < off + l.length then (l[k - off]?).map some else a[k]? := by
  induction l with
  | nil =>
    intro a off _
    refine ⟨a, rfl, rfl, fun k => ?_⟩
    rw [if_neg (by simp only [List.length_nil]; omega)]
  | cons v l ih =>
    intro a off h
    simp only [List.length_cons] at h
    obtain ⟨b, hb, hl, hk⟩ := ih (a.set off (some v)) (off + 1) (by simp; omega)
    refine ⟨b, ?_, by simpa using hl, fun k => ?_⟩
    · unfold wrList
      rw [wr_ok v (by omega)]
      exact hb
    · rw [hk k]
      simp only [List.length_cons, List.getElem?_set]
      by_cases h1 : off = k
      · subst h1
        rw [if_neg (by omega), if_pos rfl, if_pos (by omega), if_pos (by omega)]
        simp
      · by_cases h2 : off + 1 ≤ k ∧ k < off + 1 + l.length
        · rw [if_pos h2, if_pos (by omega)]
          have : k - off = (k - (off + 1)) + 1 := by omega
          rw [this, List.getElem?_cons_succ]
        · rw [if_neg h2, if_neg h1, if_neg (by omega)]

theorem copy_ok (src dst : Arr α) (n off : Nat) (h1 : n ≤ src.length) (h2 : off + n ≤ dst.length) :
    ∃ b, src.copy n dst off = .ok b ∧ b.length = dst.length ∧
      ∀ k, b[k]? = if off ≤ k ∧ k < off + n then src[k - off]? else dst[k]? := by
  unfold Arr.copy
  rw [if_neg (by omega)]
  simp only [Int.toNat_natCast]
  rw [if_pos ⟨h1, h2⟩]
  refine ⟨_, rfl, by simp; omega, fun k => ?_⟩
  simp only [List.getElem?_append, List.length_take, List.getElem?_take, List.getElem?_drop]
  rw [Nat.min_eq_left (by omega), Nat.min_eq_left h1]
  by_cases a : k < off
  · rw [if_pos a, if_pos a, if_neg (by omega)]
  · rw [if_neg a]
    by_cases b : k - off < n
    · rw [if_pos b, if_pos b, if_pos (by omega)]
    · rw [if_neg b, if_neg (by omega)]
      congr 1
      omega

theorem rdList_ok (l : List α) : ∀ (a : Arr α) (addr : Nat),
    (∀ j v, l[j]? = some v → a[addr + j]? = some (some v)) → a.rdList addr l.length = .ok l := by
  induction l with
  | nil => intro a addr _; rfl
  | cons v l ih =>
    intro a addr h
    show (a.rd addr >>= fun v => a.rdList (addr + 1) l.length >>= fun l => .ok (v :: l)) = _
    rw [rd_ok (i := addr) (h 0 v (by simp)), Res.ok_bind]
    have := ih a (addr + 1) (fun j w hj => by
      have := h (j + 1) w (by simpa using hj)
      rw [← this]; congr 1; omega)
    rw [show ((addr + 1 : Nat) : Int) = (addr : Int) + 1 by omega] at this
    rw [this]; rfl

end Arr

namespace Dir

/-- The directory has `n` rows and the memory for them. -/
def Fits (d : Dir) (n : Nat) : Prop := d.n = n ∧ 2 * (n : Int) ≤ d.memsize ∧ d.memsize ≤ d.arr.length

theorem fits_raw (n : Nat) : (Dir.raw n).Fits n := by
  refine ⟨rfl, by simp [Dir.raw], ?_⟩
  simp only [Dir.raw, Arr.length_alloc]
  omega

theorem fits_noalloc : (Dir.noalloc 0).Fits 0 := ⟨rfl, by simp [noalloc], by simp [noalloc]⟩

theorem at_ok {d : Dir} {i : Nat} {j x : Nat} {c : Int} (hc : c = j)
    (h : d.arr[2 * i + j]? = some (some (x : Int))) : d.at' i c = .ok x := by
  unfold at'
  exact Arr.rd_ok' (k := 2 * i + j) (by omega) h

/-- Writing both entries of row `i`. -/
theorem set2_ok {d : Dir} {n i : Nat} (c0 c1 : Int) (hd : d.Fits n) (hi : i < n) :
    ∃ d', (d.set i 0 c0 >>= fun d => d.set i 1 c1) = .ok d' ∧ d'.Fits n ∧
      d'.arr[2 * i]? = some (some c0) ∧ d'.arr[2 * i + 1]? = some (some c1) ∧
      ∀ k, k ≠ 2 * i → k ≠ 2 * i + 1 → d'.arr[k]? = d.arr[k]? := by
  obtain ⟨h1, h2, h3⟩ := hd
  unfold Dir.set
  rw [Arr.wr_ok' (k := 2 * i) c0 (by omega) (by omega)]
  simp only [Res.ok_bind]
  rw [Arr.wr_ok' (k := 2 * i + 1) c1 (by omega) (by simp; omega)]
  refine ⟨_, rfl, ⟨h1, h2, by simpa using h3⟩, ?_, ?_, ?_⟩
  · simp only [List.getElem?_set]
    rw [if_neg (by omega), if_pos trivial, if_pos (by omega)]
  · simp only [List.getElem?_set, List.length_set]
    rw [if_pos trivial, if_pos (by omega)]
  · intro k a b
    simp only [List.getElem?_set]
    rw [if_neg (by omega), if_neg (by omega)]

theorem set1_ok {d : Dir} {n i : Nat} (c1 : Int) (hd : d.Fits n) (hi : i < n) :
    ∃ d', d.set i 1 c1 = .ok d' ∧ d'.Fits n ∧ d'.arr[2 * i + 1]? = some (some c1) ∧
      ∀ k, k ≠ 2 * i + 1 → d'.arr[k]? = d.arr[k]? := by
  obtain ⟨h1, h2, h3⟩ := hd
  unfold Dir.set
  rw [Arr.wr_ok' (k := 2 * i + 1) c1 (by omega) (by omega)]
  refine ⟨_, rfl, ⟨h1, h2, by simpa using h3⟩, ?_, ?_⟩
  · simp only [List.getElem?_set]
    rw [if_pos trivial, if_pos (by omega)]
  · intro k b
    simp only [List.getElem?_set]
    rw [if_neg (by omega)]

theorem reserve0_ok {d : Dir} {n : Nat} (m : Nat) (hd : d.Fits n) (hm : n < m) :
    ∃ d', d.reserve0 m = .ok d' ∧ d'.n = n ∧ 2 * (m : Int) ≤ d'.memsize + 1 ∧ d'.memsize ≤ d'.arr.length ∧
      (2 * (m : Int) ≤ d'.memsize) ∧ ∀ k < 2 * n, d'.arr[k]? = d.arr[k]? := by
  obtain ⟨h1, h2, h3⟩ := hd
  have ht : Int.tdiv d.memsize 2 = d.memsize / 2 := Int.tdiv_eq_ediv_of_nonneg (by omega)
  unfold reserve0 capacity0
  rw [ht]
  by_cases c : (m : Int) ≤ d.memsize / 2
  · rw [if_pos c]
    exact ⟨d, rfl, h1, by omega, h3, by omega, fun _ _ => rfl⟩
  · rw [if_neg c]
    dsimp only
    rw [if_neg (show ¬ (m : Int) * 2 = 0 by omega), h1]
    obtain ⟨b, hb, hl, hk⟩ := Arr.copy_ok d.arr (Arr.alloc ((m : Int) * 2)) (2 * n) 0 (by omega)
      (by rw [Arr.length_alloc]; omega)
    have e : ((2 * n : Nat) : Int) = 2 * (n : Int) := by omega
    rw [e] at hb
    have hb' : d.arr.copy (2 * (n : Int)) (Arr.alloc ((m : Int) * 2)) 0 = .ok b := hb
    rw [hb']
    refine ⟨_, rfl, ?_, ?_, ?_, ?_, ?_⟩
    · rfl
    · dsimp only; omega
    · dsimp only; rw [hl, Arr.length_alloc]; omega
    · dsimp only; omega
    · intro k hk'
      dsimp only
      rw [hk k, if_pos (by omega), Nat.sub_zero]

theorem pushBack_ok {d : Dir} {n : Nat} (c0 c1 : Int) (hd : d.Fits n) :
    ∃ d', d.pushBack c0 c1 = .ok d' ∧ d'.Fits (n + 1) ∧ d'.arr[2 * n]? = some (some c0) ∧
      d'.arr[2 * n + 1]? = some (some c1) ∧ ∀ k < 2 * n, d'.arr[k]? = d.arr[k]? := by
  have hd0 := hd
  obtain ⟨h1, h2, h3⟩ := hd
  have ht : Int.tdiv d.memsize 2 = d.memsize / 2 := Int.tdiv_eq_ediv_of_nonneg (by omega)
  have key : ∃ d1, (if d.capacity0 ≤ d.n + 1 then d.reserve0 (2 * (d.n + 1)) else Res.ok d) = .ok d1 ∧
      d1.n = n ∧ 2 * ((n + 1 : Nat) : Int) ≤ d1.memsize ∧ d1.memsize ≤ d1.arr.length ∧
      ∀ k < 2 * n, d1.arr[k]? = d.arr[k]? := by
    by_cases c : d.capacity0 ≤ d.n + 1
    · rw [if_pos c]
      obtain ⟨d1, e1, e2, _, e4, e5, e6⟩ := reserve0_ok (2 * (n + 1)) hd0 (by omega)
      refine ⟨d1, ?_, e2, by omega, e4, e6⟩
      rw [← e1, h1]
      congr 1
    · rw [if_neg c]
      unfold capacity0 at c
      rw [ht] at c
      exact ⟨d, rfl, h1, by omega, h3, fun _ _ => rfl⟩
  obtain ⟨d1, e1, e2, e3, e4, e5⟩ := key
  unfold pushBack
  dsimp only
  rw [e1, Res.ok_bind]
  obtain ⟨d2, f1, f2, f3, f4, f5⟩ := set2_ok (d := { d1 with n := d1.n + 1 }) (n := n + 1) (i := n) c0 c1
    ⟨by dsimp only; omega, e3, e4⟩ (by omega)
  rw [h1]
  refine ⟨d2, f1, f2, f3, f4, fun k hk => ?_⟩
  rw [f5 k (by omega) (by omega)]
  exact e5 k hk

theorem copy_ok {d : Dir} {n : Nat} (hd : d.Fits n) :
    ∃ d', d.copy = .ok d' ∧ d'.Fits n ∧ ∀ k < 2 * n, d'.arr[k]? = d.arr[k]? := by
  obtain ⟨h1, h2, h3⟩ := hd
  unfold Dir.copy
  rw [h1]
  obtain ⟨b, hb, hl, hk⟩ := Arr.copy_ok d.arr (Arr.alloc (2 * (n : Int))) (2 * n) 0 (by omega)
    (by rw [Arr.length_alloc]; omega)
  have e : ((2 * n : Nat) : Int) = 2 * (n : Int) := by omega
  rw [e] at hb
  have hb' : d.arr.copy (2 * (n : Int)) (Arr.alloc (2 * (n : Int))) 0 = .ok b := hb
  rw [hb']
  refine ⟨_, rfl, ⟨rfl, by dsimp only; omega, ?_⟩, fun k hk' => ?_⟩
  · dsimp only; rw [hl, Arr.length_alloc]; omega
  · dsimp only
    rw [hk k, if_pos (by omega), Nat.sub_zero]

end Dir

end Cnine
