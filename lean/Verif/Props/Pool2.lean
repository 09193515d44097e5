import Verif.Lemmas.Pool
import Verif.Lemmas.Pool3

/-!
# C39: `int_pool`; C40: `auto_array`
-/

namespace Cnine

/-! ## C39 -/

namespace IntPool

/-- Successive calls of `add_vec`. -/
def addVecs : List Int → IntPool → Res IntPool
  | [], p => .ok p
  | m :: l, p => p.addVec m >>= fun r => addVecs l r.1

theorem mk_ok (n m : Nat) : ∃ p, mk' n m = .ok p ∧ p.n = n ∧ p.last = -1 ∧ p.arr.length = n + m + 2 ∧
    p.arr[0]? = some (some (n : Int)) ∧ p.arr[1]? = some (some ((n : Int) + 2)) ∧
    ∀ k, 2 ≤ k → k < n + m + 2 → p.arr[k]? = some none := by
  unfold mk'
  rw [Pool.assrt_pos (by omega), Res.ok_bind]
  have hl : ((n : Int) + m + 2).toNat = n + m + 2 := by omega
  rw [hl]
  dsimp only
  rw [Arr.wr_ok' (i := 0) (k := 0) _ rfl (by simp), Res.ok_bind,
    Arr.wr_ok' (i := 1) (k := 1) _ rfl (by simp), Res.ok_bind]
  refine ⟨_, rfl, rfl, rfl, by simp, ?_, ?_, ?_⟩
  · dsimp only; rw [List.getElem?_set_ne (by omega), List.getElem?_set_self (by simp)]
  · dsimp only; rw [List.getElem?_set_self (by simp)]
  · intro k h1 h2
    dsimp only
    rw [List.getElem?_set_ne (by omega), List.getElem?_set_ne (by omega), List.getElem?_replicate, if_pos h2]

/-- What repeated `add_vec` does from a state in which `k` lists were added. -/
theorem addVecs_ok (ms : List Int) : ∀ (p : IntPool) (k : Nat) (x : Int), p.last = (k : Int) - 1 →
    p.arr[k]? = some (some x) → k + ms.length < p.arr.length →
    ∃ p', addVecs ms p = .ok p' ∧ p'.n = p.n ∧ p'.last = (k : Int) + ms.length - 1 ∧
      p'.arr.length = p.arr.length ∧
      (∀ j ≤ ms.length, p'.arr[k + j]? = some (some (x + (ms.take j).sum))) ∧
      ∀ l, (l < k ∨ k + ms.length < l) → p'.arr[l]? = p.arr[l]? := by
  induction ms with
  | nil =>
    intro p k x hk hx _
    refine ⟨p, rfl, rfl, by simpa using hk, rfl, ?_, fun _ _ => rfl⟩
    intro j hj
    simp only [List.length_nil, Nat.le_zero] at hj
    subst hj
    simpa using hx
  | cons m ms ih =>
    intro p k x hk hx hl
    simp only [List.length_cons] at hl
    have hstep : p.addVec m = .ok ({ p with arr := p.arr.set (k + 1) (some (x + m)), last := p.last + 1 }, x + m) := by
      unfold addVec
      rw [Arr.rd_ok' (k := k) (by omega) hx, Res.ok_bind, Arr.wr_ok' (k := k + 1) _ (by omega) (by omega),
        Res.ok_bind]
      dsimp only
      rw [Arr.rd_ok' (k := k + 1) (v := x + m) (by omega) (List.getElem?_set_self (by omega))]
      rfl
    obtain ⟨p', e1, e2, e3, e4, e5, e6⟩ := ih { p with arr := p.arr.set (k + 1) (some (x + m)), last := p.last + 1 }
      (k + 1) (x + m) (by dsimp only; omega) (List.getElem?_set_self (by omega)) (by simp; omega)
    refine ⟨p', ?_, e2, ?_, by simpa using e4, ?_, ?_⟩
    · unfold addVecs
      rw [hstep, Res.ok_bind]
      exact e1
    · rw [e3, List.length_cons]; omega
    · intro j hj
      cases j with
      | zero =>
        rw [Nat.add_zero, e6 k (by omega)]
        dsimp only
        rw [List.getElem?_set_ne (by omega), hx]
        simp
      | succ j =>
        rw [show k + (j + 1) = k + 1 + j by omega, e5 j (by simpa using hj)]
        simp only [List.take_succ_cons, List.sum_cons]
        rw [Int.add_assoc]
    · intro l h
      simp only [List.length_cons] at h
      rw [e6 l (by omega)]
      dsimp only
      rw [List.getElem?_set_ne (by omega)]

/-- C39 (what `add_vec` really does): after adding lists of lengths `ms`, list `i` starts at `n` plus the
lengths up to and including its own, and its length is that of the *next* list added; the length of the last
one is that of a list that was not added yet.  The header has room for `n+1` calls.
Intended: list `i` starts at `n+2` plus the lengths before it, and has length `ms[i]`. -/
theorem C39_addVec_partial (n m : Nat) (ms : List Int) (h : ms.length ≤ n + 1) :
    ∃ p0 p, mk' n m = .ok p0 ∧ addVecs ms p0 = .ok p ∧ p.n = n ∧
      (∀ i < min ms.length n, p.addrOf (i : Nat) = .ok ((n : Int) + (ms.take (i + 1)).sum)) ∧
      (∀ i x, i < n → ms[i + 1]? = some x → p.sizeOf (i : Nat) = .ok x) := by
  obtain ⟨p0, e1, e2, e3, e4, e5, _, _⟩ := mk_ok n m
  obtain ⟨p, f1, f2, f3, f4, f5, f6⟩ := addVecs_ok ms p0 0 n (by rw [e3]; rfl) e5 (by omega)
  refine ⟨p0, p, e1, f1, by rw [f2, e2], ?_, ?_⟩
  · intro i hi
    unfold addrOf
    rw [Pool.assrt_pos (by omega), Res.ok_bind]
    refine Arr.rd_ok' (k := i + 1) (by omega) ?_
    have := f5 (i + 1) (by omega)
    rw [Nat.zero_add] at this
    exact this
  · intro i x hi hx
    have hl : i + 1 < ms.length := (List.getElem?_eq_some_iff.mp hx).1
    have a1 := f5 (i + 1) (by omega)
    have a2 := f5 (i + 2) (by omega)
    rw [Nat.zero_add] at a1 a2
    unfold sizeOf
    rw [Pool.assrt_pos (by omega), Res.ok_bind, Arr.rd_ok' (k := i + 2) (by omega) a2, Res.ok_bind,
      Arr.rd_ok' (k := i + 1) (by omega) a1, Res.ok_bind]
    congr 1
    have : ms.take (i + 2) = ms.take (i + 1) ++ [x] := by
      rw [List.take_add_one, hx]; rfl
    rw [this, List.sum_append]
    simp
    omega

/-- C39 is false: before the first call `tail()` is the free address `n+2`; the call replaces it by another
address, and the length of the list just added reads memory that was never written. -/
theorem C39_addVec_fails (n m : Nat) (len : Int) (hn : 0 < n) :
    ∃ p0 p r, mk' n m = .ok p0 ∧ p0.tail = .ok ((n : Int) + 2) ∧ p0.addVec len = .ok (p, r) ∧
      r = n + len ∧ p.addrOf 0 = .ok ((n : Int) + len) ∧ p.sizeOf 0 = .ub ∧ p.tail = .ub := by
  obtain ⟨p0, e1, e2, e3, e4, e5, e6, e7⟩ := mk_ok n m
  have hstep : p0.addVec len = .ok ({ p0 with arr := p0.arr.set 1 (some ((n : Int) + len)), last := 0 }, (n : Int) + len) := by
    unfold addVec
    rw [e3, Arr.rd_ok' (k := 0) (by omega) e5, Res.ok_bind, Arr.wr_ok' (k := 1) _ (by omega) (by omega), Res.ok_bind]
    dsimp only
    rw [Arr.rd_ok' (k := 1) (v := (n : Int) + len) (by omega) (List.getElem?_set_self (by omega))]
    rfl
  refine ⟨p0, _, _, e1, ?_, hstep, rfl, ?_, ?_, ?_⟩
  · unfold tail
    exact Arr.rd_ok' (k := 1) (by omega) e6
  · unfold addrOf
    rw [Pool.assrt_pos (by dsimp only; omega), Res.ok_bind]
    exact Arr.rd_ok' (k := 1) rfl (List.getElem?_set_self (by omega))
  · have h2 : (p0.arr.set 1 (some ((n : Int) + len)))[2]? = some none := by
      rw [List.getElem?_set_ne (by omega)]; exact e7 2 (by omega) (by omega)
    unfold sizeOf
    rw [Pool.assrt_pos (by dsimp only; omega), Res.ok_bind]
    have : Arr.rd (p0.arr.set 1 (some ((n : Int) + len))) (0 + 2) = .ub := by
      unfold Arr.rd
      rw [if_neg (by omega), show ((0 : Int) + 2).toNat = 2 from rfl, h2]
    dsimp only
    rw [this]; rfl
  · have h2 : (p0.arr.set 1 (some ((n : Int) + len)))[2]? = some none := by
      rw [List.getElem?_set_ne (by omega)]; exact e7 2 (by omega) (by omega)
    unfold tail Arr.rd
    dsimp only
    rw [if_neg (by omega), show ((0 : Int) + 2).toNat = 2 from rfl, h2]

/-- C39 is false: writing into a list that follows an empty one overwrites the header. -/
theorem C39_header_fails : ∃ p p' : IntPool, (mk' 2 4 >>= addVecs [0, 3]) = .ok p ∧ p.sizeOf 0 = .ok 3 ∧
    p.set 0 0 9 = .ok p' ∧ p'.sizeOf 0 = .ok 7 := by
  refine ⟨⟨2, 1, [some 2, some 2, some 5, none, none, none, none, none]⟩,
    ⟨2, 1, [some 2, some 2, some 9, none, none, none, none, none]⟩, ?_⟩
  decide

/-- C39 is false for the use made of it in containers/map_of_maps.hpp:37-47: two rows end in undefined
behaviour. -/
theorem C39_ofRows_fails : ofRows [[1, 2], [3]] = .ub := by decide

example : (mk' 3 6 >>= addVecs [1, 2, 3] >>= fun p => p.addrOf 1) = .ok 6 := by decide
example : (mk' 3 6 >>= addVecs [1, 2, 3] >>= fun p => p.sizeOf 1) = .ok 3 := by decide

end IntPool

/-! ## C40 -/

namespace AutoArray

variable {α : Type _}

/-- Operations that change an `auto_array`. -/
inductive Op (α : Type _) where
  | set (i : Nat) (v : α)
  | reserve (n : Nat)
  | resize (n : Nat)

/-- What an `auto_array` is meant to be: a size, and the values written. -/
def specStep : Op α → Nat × (Nat → Option α) → Nat × (Nat → Option α)
  | .set i v, s => (max s.1 (i + 1), fun k => if k = i then some v else s.2 k)
  | .reserve _, s => s
  | .resize n, s => (n, s.2)

/-- The same on the model. -/
def step : Op α → AutoArray α → Res (AutoArray α)
  | .set i v, a => a.set i v
  | .reserve n, a => a.reserve n
  | .resize n, a => a.resize n

def exec : List (Op α) → AutoArray α → Res (AutoArray α)
  | [], a => .ok a
  | o :: l, a => step o a >>= exec l

/-- Representation. -/
structure Holds (a : AutoArray α) (s : Nat × (Nat → Option α)) : Prop where
  size : a.size = s.1
  mem : a.memsize = a.arr.length
  le : a.size ≤ a.memsize
  val : ∀ k v, s.2 k = some v → a.arr[k]? = some (some v)

theorem reserve_ok {a : AutoArray α} {s : Nat × (Nat → Option α)} (h : a.Holds s) (n : Nat) :
    ∃ a', a.reserve n = .ok a' ∧ a'.Holds s ∧ n ≤ a'.memsize := by
  unfold reserve
  by_cases c : n ≤ a.memsize
  · rw [if_pos c]; exact ⟨a, rfl, h, c⟩
  · rw [if_neg c]
    dsimp only
    obtain ⟨b, e1, e2, e3⟩ := Arr.copy_ok a.arr (List.replicate (max n (2 * a.memsize)) none) a.memsize 0
      (Nat.le_of_eq h.mem) (by simp; omega)
    have e1' : a.arr.copy a.memsize (List.replicate (max n (2 * a.memsize)) none) 0 = .ok b := e1
    rw [e1', Res.ok_bind]
    have hle := h.le
    rw [List.length_replicate] at e2
    refine ⟨_, rfl, ⟨h.size, ?_, ?_, ?_⟩, ?_⟩
    · dsimp only; rw [e2]
    · dsimp only; omega
    · intro k v hv
      have hk := h.val k v hv
      have hl : k < a.arr.length := (List.getElem?_eq_some_iff.mp hk).1
      dsimp only
      rw [e3 k, if_pos (by have := h.mem; omega), Nat.sub_zero]
      exact hk
    · dsimp only; omega

theorem resize_ok {a : AutoArray α} {s : Nat × (Nat → Option α)} (h : a.Holds s) (n : Nat) :
    ∃ a', a.resize n = .ok a' ∧ a'.Holds (n, s.2) := by
  unfold resize
  by_cases c : a.memsize < n
  · rw [if_pos c]
    obtain ⟨a', e1, e2, e3⟩ := reserve_ok h n
    rw [e1, Res.ok_bind]
    exact ⟨_, rfl, rfl, e2.mem, e3, e2.val⟩
  · rw [if_neg c, Res.ok_bind]
    exact ⟨_, rfl, rfl, h.mem, by dsimp only; omega, h.val⟩

theorem ensure_ok {a : AutoArray α} {s : Nat × (Nat → Option α)} (h : a.Holds s) (i : Nat) :
    ∃ a', a.ensure i = .ok a' ∧ a'.Holds (max s.1 (i + 1), s.2) := by
  have hs := h.size
  unfold ensure
  by_cases c : a.size ≤ i
  · rw [if_pos c]
    obtain ⟨a', e1, e2⟩ := resize_ok h (i + 1)
    refine ⟨a', e1, ?_⟩
    rwa [Nat.max_eq_right (by omega)]
  · rw [if_neg c]
    refine ⟨a, rfl, ?_⟩
    rw [Nat.max_eq_left (by omega)]
    exact h

theorem step_ok (o : Op α) {a : AutoArray α} {s : Nat × (Nat → Option α)} (h : a.Holds s) :
    ∃ a', step o a = .ok a' ∧ a'.Holds (specStep o s) := by
  cases o with
  | reserve n => obtain ⟨a', e1, e2, _⟩ := reserve_ok h n; exact ⟨a', e1, e2⟩
  | resize n => exact resize_ok h n
  | set i v =>
    obtain ⟨a', e1, e2⟩ := ensure_ok h i
    have h1 := e2.size
    have h2 := e2.le
    have h3 := e2.mem
    have hi : i < a'.arr.length := by rw [← h3]; simp only at h1; omega
    refine ⟨{ a' with arr := a'.arr.set i (some v) }, ?_, h1, by simpa using h3, h2, ?_⟩
    · show AutoArray.set a i v = _
      unfold AutoArray.set
      rw [e1, Res.ok_bind, Arr.wr_ok v hi]; rfl
    · intro k w hw
      simp only [specStep] at hw
      dsimp only
      by_cases c : k = i
      · subst c
        rw [if_pos rfl] at hw
        rw [List.getElem?_set_self hi, hw]
      · rw [if_neg c] at hw
        rw [List.getElem?_set_ne (by omega)]
        exact e2.val k w hw

theorem exec_ok (ops : List (Op α)) : ∀ {a : AutoArray α} {s : Nat × (Nat → Option α)}, a.Holds s →
    ∃ a', exec ops a = .ok a' ∧ a'.Holds (ops.foldl (fun s o => specStep o s) s) := by
  induction ops with
  | nil => intro a s h; exact ⟨a, rfl, h⟩
  | cons o l ih =>
    intro a s h
    obtain ⟨a1, e1, e2⟩ := step_ok o h
    obtain ⟨a2, f1, f2⟩ := ih e2
    refine ⟨a2, ?_, f2⟩
    unfold exec
    rw [e1, Res.ok_bind]; exact f1

/-- C40: after any history of `set`, `reserve` and `resize` the array has the size last asked for, and every
value that was written reads back, also after the array was grown, or made shorter and longer again.
Reading beyond the end makes the array longer and keeps everything written. -/
theorem C40_history_partial (n : Nat) (ops : List (Op α)) :
    ∃ a, exec ops (ofSize n) = .ok a ∧ a.size = (ops.foldl (fun s o => specStep o s) (n, fun _ => none)).1 ∧
      ∀ i v, (ops.foldl (fun s o => specStep o s) (n, fun _ => none)).2 i = some v →
        ∃ a', a.get i = .ok (a', v) ∧ a'.size = max a.size (i + 1) ∧
          ∀ k w, (ops.foldl (fun s o => specStep o s) (n, fun _ => none)).2 k = some w →
            ∃ a'', a'.get k = .ok (a'', w) := by
  have h0 : (ofSize n : AutoArray α).Holds (n, fun _ => none) := ⟨rfl, by simp [ofSize], by simp [ofSize], by simp⟩
  obtain ⟨a, e1, e2⟩ := exec_ok ops h0
  have rd : ∀ {b : AutoArray α} {s : Nat × (Nat → Option α)}, b.Holds s → ∀ i v, s.2 i = some v →
      ∃ b', b.get i = .ok (b', v) ∧ b'.Holds (max s.1 (i + 1), s.2) := by
    intro b s hb i v hv
    obtain ⟨b', f1, f2⟩ := ensure_ok hb i
    refine ⟨b', ?_, f2⟩
    unfold get
    rw [f1, Res.ok_bind, Arr.rd_ok (f2.val i v hv)]; rfl
  refine ⟨a, e1, e2.size, ?_⟩
  intro i v hv
  obtain ⟨a', f1, f2⟩ := rd e2 i v hv
  refine ⟨a', f1, by rw [f2.size, e2.size], ?_⟩
  intro k w hw
  obtain ⟨a'', g1, _⟩ := rd f2 k w hw
  exact ⟨a'', g1⟩

/-- The same from the default constructor. -/
theorem C40_history_empty_partial (ops : List (Op α)) :
    ∃ a, exec ops empty = .ok a ∧ a.size = (ops.foldl (fun s o => specStep o s) (0, fun _ => none)).1 ∧
      ∀ i v, (ops.foldl (fun s o => specStep o s) (0, fun _ => none)).2 i = some v →
        ∃ a', a.get i = .ok (a', v) ∧ a'.size = max a.size (i + 1) := by
  have h0 : (empty : AutoArray α).Holds (0, fun _ => none) := ⟨rfl, by simp [empty], by simp [empty], by simp⟩
  obtain ⟨a, e1, e2⟩ := exec_ok ops h0
  refine ⟨a, e1, e2.size, ?_⟩
  intro i v hv
  obtain ⟨a', f1, f2⟩ := ensure_ok e2 i
  refine ⟨a', ?_, by rw [f2.size, e2.size]⟩
  unfold get
  rw [f1, Res.ok_bind, Arr.rd_ok (f2.val i v hv)]; rfl

example : (exec [.set 4 7, .set 0 3, .reserve 20, .resize 1, .set 2 9] (empty : AutoArray Int) >>= fun a =>
    a.get 4 >>= fun r => .ok (a.size, r.1.size, r.2)) = .ok (3, 5, 7) := by decide

/-- C40 is false for the copy constructor: the copy has the right size but none of the values. -/
theorem C40_copy_fails (a : AutoArray α) (i : Nat) (hi : i < a.size) : (copy a).size = a.size ∧ (copy a).get i = .ub := by
  refine ⟨rfl, ?_⟩
  unfold get ensure copy
  dsimp only
  rw [if_neg (by omega), Res.ok_bind]
  dsimp only
  have : Arr.rd (List.replicate a.memsize (none : Option α)) (i : Nat) = .ub := by
    unfold Arr.rd
    rw [if_neg (by omega), Int.toNat_natCast, List.getElem?_replicate]
    split <;> rename_i h <;> split at h <;> simp at h ⊢
  rw [this]; rfl

example : ∃ a : AutoArray Int, exec [.set 1 5] empty = .ok a ∧ (a.get 1 >>= fun r => .ok r.2) = .ok 5 ∧
    (copy a).get 1 = .ub := ⟨⟨[none, some 5], 2, 2⟩, by decide⟩

/-- C40 is false for reading beyond the end: the new cells are not initialised, so the value read is
undefined. -/
theorem C40_get_beyond_fails : ((ofSize 0).get 3 : Res (AutoArray Int × Int)) = .ub := by decide

end AutoArray

end Cnine
