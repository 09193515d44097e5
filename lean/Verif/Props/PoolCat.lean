import Verif.Props.Pool
import Mathlib.Tactic.Set

/-!
# C37: concatenating pools, and the flat form made by `to_tensor`
-/

namespace Cnine

open PoolSpec

variable {α : Type _}

namespace Pool

theorem catDir_ok {x : Pool α} {xs : List (Row α)} (h : x.Holds xs) (a : Nat) (tail : Nat) :
    ∀ (k i : Nat) (d : Dir) (n : Nat), d.Fits n → i + k = xs.length → a + xs.length ≤ n →
    ∃ d', catDir x a tail i k d = .ok d' ∧ d'.Fits n ∧
      (∀ l r, i ≤ l → xs[l]? = some r →
        d'.arr[2 * (a + l)]? = some (some ((tail + off xs l : Nat) : Int)) ∧
        d'.arr[2 * (a + l) + 1]? = some (some (r.cells.length : Int))) ∧
      ∀ m < 2 * (a + i), d'.arr[m]? = d.arr[m]? := by
  intro k
  induction k with
  | zero =>
    intro i d n hd hi _
    refine ⟨d, rfl, hd, ?_, fun _ _ => rfl⟩
    intro l r hl hr
    have := lt_of_get hr
    omega
  | succ k ih =>
    intro i d n hd hi hn
    have hr : xs[i]? = some xs[i] := List.getElem?_eq_getElem (by omega)
    obtain ⟨d1, e1, e2, e3, e4, e5⟩ := Dir.set2_ok (i := a + i) ((tail : Int) + (off xs i : Int))
      (xs[i].cells.length : Int) hd (show a + i < n by omega)
    obtain ⟨d2, f1, f2, f3, f4⟩ := ih (i + 1) d1 n e2 (by omega) hn
    refine ⟨d2, ?_, f2, ?_, ?_⟩
    · obtain ⟨d3, g1, g2⟩ := Res.bind_eq_ok.mp e1
      have ea : ((a + i : Nat) : Int) = (a : Int) + (i : Int) := by omega
      rw [ea] at g1 g2
      unfold catDir
      rw [Part.off_at h hr, Res.ok_bind, g1, Res.ok_bind, Part.len_at h hr, Res.ok_bind, g2, Res.ok_bind]
      exact f1
    · intro l r hl hlr
      by_cases c : l = i
      · subst c
        rw [f4 _ (by omega), f4 _ (by omega), e3, e4]
        rw [hr] at hlr
        cases hlr
        exact ⟨by simp, rfl⟩
      · exact f3 l r (by omega) hlr
    · intro m hm
      rw [f4 m (by omega), e5 m (by omega) (by omega)]

/-- One pool appended to a partly filled one. -/
theorem part_append {p : Pool α} {n : Nat} {rows : List (Row α)} (h : p.Part n rows) {x : Pool α}
    {xs : List (Row α)} (hx : x.Holds xs) (hn : rows.length + xs.length ≤ n)
    (hm : p.tail + x.tail ≤ p.memsize) :
    ∃ d a, catDir x rows.length p.tail 0 x.size.toNat p.dir = .ok d ∧ x.arr.copy x.tail p.arr p.tail = .ok a ∧
      Part { p with dir := d, arr := a, tail := p.tail + x.tail } n (rows ++ xs) := by
  have hs := Part.size hx
  have ht := h.tail
  have hxt := hx.tail
  have hxm := hx.mem
  have hxa := hx.arr
  have ha := h.arr
  obtain ⟨d, e1, e2, e3, e4⟩ := catDir_ok hx rows.length (off rows rows.length) xs.length 0 p.dir n h.dir
    (by omega) hn
  obtain ⟨b, g1, g2, g3⟩ := Arr.copy_ok x.arr p.arr (off xs xs.length) (off rows rows.length) (by omega) (by omega)
  have hlen : off (rows ++ xs) (rows ++ xs).length = off rows rows.length + off xs xs.length := by
    rw [List.length_append, off_append_len]
  have cases' : ∀ k (s : Row α), (rows ++ xs)[k]? = some s →
      (rows[k]? = some s ∧ k < rows.length) ∨ (∃ l, k = rows.length + l ∧ xs[l]? = some s) := by
    intro k s hs
    by_cases c : k < rows.length
    · rw [List.getElem?_append_left c] at hs
      exact Or.inl ⟨hs, c⟩
    · rw [List.getElem?_append_right (by omega)] at hs
      exact Or.inr ⟨k - rows.length, by omega, hs⟩
  refine ⟨d, b, ?_, ?_, ?_⟩
  · rw [hs, Int.toNat_natCast, ht]; exact e1
  · rw [hxt, ht]; exact g1
  · refine ⟨e2, by simpa using hn, ?_, ?_, ?_, ?_, ?_, ?_, ?_⟩
    · dsimp only; rw [hlen]; omega
    · dsimp only; omega
    · dsimp only; rw [g2]; exact ha
    · intro s hs
      rcases List.mem_append.mp hs with hs | hs
      · exact h.fit s hs
      · exact hx.fit s hs
    · intro k s hs
      dsimp only
      rcases cases' k s hs with ⟨hs, hk⟩ | ⟨l, rfl, hl⟩
      · rw [e4 _ (by omega), h.dir0 k s hs, off_append _ (by omega)]
      · rw [(e3 l s (by omega) hl).1, off_append_len]
    · intro k s hs
      dsimp only
      rcases cases' k s hs with ⟨hs, hk⟩ | ⟨l, rfl, hl⟩
      · rw [e4 _ (by omega), h.dir1 k s hs]
      · exact (e3 l s (by omega) hl).2
    · intro k s j v hs hv
      dsimp only
      have hj : j < s.cells.length := (List.getElem?_eq_some_iff.mp hv).1
      rcases cases' k s hs with ⟨hs, hk⟩ | ⟨l, rfl, hl⟩
      · have hb := h.bound hs (Nat.lt_of_lt_of_le hj (h.fit' hs))
        rw [off_append _ (by omega), g3, if_neg (by omega)]
        exact h.cells k s j v hs hv
      · have hb := Part.bound hx hl (Nat.lt_of_lt_of_le hj (Part.fit' hx hl))
        rw [off_append_len, g3, if_pos (by omega),
          show off rows rows.length + off xs l + j - off rows rows.length = off xs l + j by omega]
        exact hx.cells l s j v hl hv

theorem catLoop_ok : ∀ (l : List (Pool α)) (ls : List (List (Row α))) (p : Pool α) (n : Nat)
    (rows : List (Row α)), l.length = ls.length → (∀ (k : Nat) (x : Pool α) (xs : List (Row α)), l[k]? = some x → ls[k]? = some xs → x.Holds xs) →
    p.Part n rows → rows.length + ls.flatten.length = n → p.tail + (l.map (·.tail)).sum ≤ p.memsize →
    ∃ p', catLoop rows.length l p = .ok p' ∧ p'.Holds (rows ++ ls.flatten) := by
  intro l
  induction l with
  | nil =>
    intro ls p n rows hl _ h hn _
    cases ls with
    | cons _ _ => cases hl
    | nil =>
      refine ⟨p, rfl, ?_⟩
      simp only [List.flatten_nil, List.append_nil, List.length_nil, Nat.add_zero] at hn ⊢
      unfold Holds
      rw [hn]; exact h
  | cons x l ih =>
    intro ls p n rows hl hx h hn hm
    cases ls with
    | nil => cases hl
    | cons xs ls =>
      simp only [List.flatten_cons, List.length_append, List.map_cons, List.sum_cons] at hn hm ⊢
      have h1 : x.Holds xs := hx 0 x xs (by simp) (by simp)
      have hrest : ∀ (k : Nat) (y : Pool α) (ys : List (Row α)), l[k]? = some y → ls[k]? = some ys → y.Holds ys := fun k y ys a b =>
        hx (k + 1) y ys (by simpa using a) (by simpa using b)
      have hnn : (0 : Int) ≤ (l.map (·.tail)).sum := by
        clear ih hx hm hn
        simp only [List.length_cons, Nat.add_right_cancel_iff] at hl
        induction l generalizing ls with
        | nil => simp
        | cons y l ih2 =>
          cases ls with
          | nil => cases hl
          | cons ys ls =>
            have h2 : y.Holds ys := hrest 0 y ys (by simp) (by simp)
            have h3 := h2.tail
            have h4 := ih2 ls (fun k y ys a b => hrest (k + 1) y ys (by simpa using a) (by simpa using b)) (by simpa using hl)
            simp only [List.map_cons, List.sum_cons]
            omega
      obtain ⟨d, a, e1, e2, e3⟩ := part_append h h1 (by omega) (by omega)
      obtain ⟨p', f1, f2⟩ := ih ls _ n (rows ++ xs) (by simpa using hl) hrest e3
        (by rw [List.length_append]; omega) (by dsimp only; omega)
      refine ⟨p', ?_, by rw [← List.append_assoc]; exact f2⟩
      have hs := Part.size h1
      unfold catLoop
      rw [e1, Res.ok_bind, e2, Res.ok_bind, hs]
      rw [List.length_append] at f1
      rw [← f1]
      congr 1

theorem part_ofSize (n : Nat) : (Pool.ofSize n : Pool α).Part n [] where
  dir := Dir.fits_raw n
  le := by simp
  tail := by simp [Pool.ofSize, off]
  mem := by simp [Pool.ofSize]
  arr := by simp [Pool.ofSize]
  fit := by simp
  dir0 := by simp
  dir1 := by simp
  cells := by simp

/-- C37: the concatenation of pools that represent lists of rows represents the concatenation of these
lists, room included. -/
theorem C37_cat_holds (l : List (Pool α)) (ls : List (List (Row α))) (hl : l.length = ls.length)
    (hx : ∀ (k : Nat) (x : Pool α) (xs : List (Row α)), l[k]? = some x → ls[k]? = some xs → x.Holds xs) :
    ∃ p, cat l = .ok p ∧ p.Holds ls.flatten := by
  have hsz : (l.map Pool.size).sum = (ls.flatten.length : Int) := by
    induction l generalizing ls with
    | nil => cases ls with
      | nil => rfl
      | cons _ _ => cases hl
    | cons x l ih =>
      cases ls with
      | nil => cases hl
      | cons xs ls =>
        have h1 : x.size = xs.length := Part.size (hx 0 x xs (by simp) (by simp))
        simp only [List.map_cons, List.sum_cons, List.flatten_cons, List.length_append]
        rw [ih ls (by simpa using hl) (fun k y ys a b => hx (k + 1) y ys (by simpa using a) (by simpa using b)), h1]
        omega
  obtain ⟨r, e1, e2, e3, e4, e5, e6, e7⟩ := reserve_ok (part_ofSize (α := α) ls.flatten.length) (l.map (·.tail)).sum
  have hr : r.Part ls.flatten.length [] := by
    have h0 := part_ofSize (α := α) ls.flatten.length
    refine ⟨by rw [e2]; exact h0.dir, by simp, ?_, ?_, e6, by simp, by simp, by simp, by simp⟩
    · rw [e3]; exact h0.tail
    · rw [e3]; exact Int.le_trans h0.mem e5
  have ht : r.tail = 0 := by rw [e3]; rfl
  obtain ⟨p, f1, f2⟩ := catLoop_ok l ls r ls.flatten.length [] hl hx hr (by simp) (by omega)
  refine ⟨p, ?_, by simpa using f2⟩
  unfold cat
  rw [hsz, e1, Res.ok_bind]
  exact f1

/-- C37: `cat` of pools made by arbitrary histories reads back the concatenation of their lists. -/
theorem C37_cat (hist : List (List (Op α))) :
    ∃ (l : List (Pool α)) (p : Pool α), l.length = hist.length ∧
      (∀ (k : Nat) (x : Pool α) (ops : List (Op α)), l[k]? = some x → hist[k]? = some ops → ∃ fl, exec ops Pool.empty = .ok (x, fl)) ∧
      cat l = .ok p ∧ p.Reads (hist.map fun ops => (PoolSpec.run ops []).1).flatten := by
  have : ∃ l : List (Pool α), l.length = hist.length ∧
      ∀ (k : Nat) (x : Pool α) (ops : List (Op α)), l[k]? = some x → hist[k]? = some ops →
        (∃ fl, exec ops Pool.empty = .ok (x, fl)) ∧ x.Holds (PoolSpec.run ops []).1 := by
    induction hist with
    | nil => exact ⟨[], rfl, by simp⟩
    | cons ops hist ih =>
      obtain ⟨l, h1, h2⟩ := ih
      obtain ⟨p, e1, e2⟩ := exec_spec ops (holds_empty (α := α))
      refine ⟨p :: l, by simp [h1], ?_⟩
      intro k x o hk ho
      cases k with
      | zero =>
        simp at hk ho
        subst hk; subst ho
        exact ⟨⟨_, e1⟩, e2⟩
      | succ k => exact h2 k x o (by simpa using hk) (by simpa using ho)
  obtain ⟨l, h1, h2⟩ := this
  obtain ⟨p, e1, e2⟩ := C37_cat_holds l (hist.map fun ops => (PoolSpec.run ops []).1) (by simpa using h1) (by
    intro k x xs hk hxs
    rw [List.getElem?_map] at hxs
    cases ho : hist[k]? with
    | none => rw [ho] at hxs; cases hxs
    | some ops =>
      rw [ho] at hxs
      cases hxs
      exact (h2 k x ops hk ho).2)
  exact ⟨l, p, h1, fun k x ops a b => (h2 k x ops a b).1, e1, e2.reads⟩

example : (exec [.pushVec [1, 2], .pushVec []] Pool.empty >>= fun a =>
    exec [.pushVec [5]] Pool.empty >>= fun b => cat [a.1, Pool.empty, b.1, a.1] >>= fun c =>
      c.list 0 >>= fun r0 => c.list 2 >>= fun r2 => c.list 3 >>= fun r3 => .ok (c.size, r0, r2, r3)) =
    .ok ((5 : Int), [(1 : Int), 2], [(5 : Int)], [(1 : Int), 2]) := by decide

/-! ## to_tensor -/

theorem headerLoop_ok {p : Pool Int} {rows : List (Row Int)} (h : p.Holds rows) (n : Nat) :
    ∀ (k i : Nat) (r : Arr Int), i + k = rows.length → rows.length + 1 ≤ r.length →
    ∃ r', headerLoop p n i k r = .ok r' ∧ r'.length = r.length ∧
      (∀ l, i ≤ l → l < rows.length → r'[l + 1]? = some (some ((n + 2 + off rows l : Nat) : Int))) ∧
      ∀ m, (m < i + 1 ∨ rows.length < m) → r'[m]? = r[m]? := by
  intro k
  have hs := Part.size h
  induction k with
  | zero =>
    intro i r hi _
    exact ⟨r, rfl, rfl, fun l h1 h2 => by omega, fun _ _ => rfl⟩
  | succ k ih =>
    intro i r hi hl
    have hr : rows[i]? = some rows[i] := List.getElem?_eq_getElem (by omega)
    obtain ⟨r', e1, e2, e3, e4⟩ := ih (i + 1) (r.set (i + 1) (some ((n : Int) + 2 + off rows i))) (by omega)
      (by simpa using hl)
    refine ⟨r', ?_, by simpa using e2, ?_, ?_⟩
    · unfold headerLoop
      unfold Pool.offset
      rw [assrt_pos (by omega)]
      simp only [Res.ok_bind]
      rw [Part.off_at h hr]
      simp only [Res.ok_bind]
      rw [Arr.wr_ok' (k := i + 1) _ (by omega) (by omega)]
      exact e1
    · intro l h1 h2
      by_cases c : l = i
      · subst c
        rw [e4 _ (by omega), List.getElem?_set_self (by omega)]
        congr 2
      · exact e3 l (by omega) h2
    · intro m hm
      rw [e4 m (by omega), List.getElem?_set_ne (by omega)]

/-- The cells of list `i` in the flat form: those between the addresses found at `i+1` and `i+2`. -/
def flatList (t : Arr Int) (i : Nat) : Option (List (Option Int)) :=
  match t[i + 1]?, t[i + 2]? with
  | some (some a), some (some b) => some ((t.drop a.toNat).take (b - a).toNat)
  | _, _ => none

theorem toTensor_ok {p : Pool Int} {rows : List (Row Int)} (h : p.Holds rows) :
    ∃ t, p.toTensor = .ok t ∧ t.length = rows.length + 2 + off rows rows.length ∧
      t[0]? = some (some (rows.length : Int)) ∧
      (∀ l, l ≤ rows.length → t[l + 1]? = some (some ((rows.length + 2 + off rows l : Nat) : Int))) ∧
      ∀ k < off rows rows.length, t[rows.length + 2 + k]? = p.arr[k]? := by
  have hs := Part.size h
  have ht := h.tail
  have hm := h.mem
  have ha := h.arr
  set n := rows.length with hn
  set o := off rows n with ho
  have hal : (Arr.alloc ((n : Int) + o + 2) : Arr Int).length = n + o + 2 := by rw [Arr.length_alloc]; omega
  obtain ⟨r1, e1, e2, e3, e4⟩ := headerLoop_ok h n n 0
    ((Arr.alloc ((n : Int) + o + 2) : Arr Int).set 0 (some (n : Int))) (by omega) (by rw [List.length_set, hal]; omega)
  rw [List.length_set, hal] at e2
  obtain ⟨b, g1, g2, g3⟩ := Arr.copy_ok p.arr (r1.set (n + 1) (some ((o : Int) + n + 2))) o (n + 2) (by omega)
    (by rw [List.length_set, e2]; omega)
  rw [List.length_set, e2] at g2
  refine ⟨b, ?_, by omega, ?_, ?_, ?_⟩
  · unfold toTensor
    dsimp only
    rw [hs, ht, Arr.wr_ok' (i := 0) (k := 0) _ rfl (by rw [hal]; omega), Res.ok_bind, Int.toNat_natCast]
    have e1' : headerLoop p (n : Int) 0 n ((Arr.alloc ((n : Int) + o + 2) : Arr Int).set 0 (some (n : Int))) = .ok r1 := e1
    rw [e1', Res.ok_bind, Arr.wr_ok' (k := n + 1) _ (by omega) (by omega), Res.ok_bind]
    exact g1
  · rw [g3, if_neg (by omega), List.getElem?_set_ne (by omega), e4 _ (by omega),
      List.getElem?_set_self (by rw [hal]; omega)]
  · intro l hl
    rw [g3, if_neg (by omega)]
    by_cases c : l = n
    · subst c
      rw [List.getElem?_set_self (by omega)]
      congr 2
      rw [← ho]
      omega
    · rw [List.getElem?_set_ne (by omega)]
      exact e3 l (by omega) (by omega)
  · intro k hk
    rw [g3, if_pos (by omega)]
    congr 1
    omega

/-- C37: for a pool whose rows are written and have no spare room, the flat form has the number of lists in
cell 0, and list `i` between the addresses in cells `i+1` and `i+2`. -/
theorem C37_toTensor {p : Pool Int} (vs : List (List Int)) (h : p.Holds (vs.map Row.full)) :
    ∃ t, p.toTensor = .ok t ∧ t.length = vs.length + 2 + (vs.map List.length).sum ∧
      t[0]? = some (some (vs.length : Int)) ∧
      ∀ i v, vs[i]? = some v → flatList t i = some (v.map some) := by
  obtain ⟨t, h1, h2, h3, h4, h5⟩ := toTensor_ok h
  rw [List.length_map] at h2 h3 h4 h5
  refine ⟨t, h1, ?_, h3, ?_⟩
  · rw [h2]
    congr 1
    unfold off
    rw [List.take_of_length_le (by simp), List.map_map]
    rfl
  · intro i v hv
    have hi : i < vs.length := (List.getElem?_eq_some_iff.mp hv).1
    have hr : (vs.map Row.full)[i]? = some (Row.full v) := by rw [List.getElem?_map, hv]; rfl
    have e := off_succ hr
    have hb : off (vs.map Row.full) (i + 1) ≤ off (vs.map Row.full) vs.length := off_mono (by omega)
    rw [show (Row.full v).room = v.length from rfl] at e
    unfold flatList
    rw [h4 i (by omega), h4 (i + 1) (by omega)]
    dsimp only
    congr 1
    rw [Int.toNat_natCast, e,
      show (((vs.length + 2 + (off (vs.map Row.full) i + v.length) : Nat) : Int) -
        ((vs.length + 2 + off (vs.map Row.full) i : Nat) : Int)).toNat = v.length by omega]
    apply List.ext_getElem?
    intro j
    rw [List.getElem?_take, List.getElem?_drop]
    by_cases hj : j < v.length
    · rw [if_pos hj, Nat.add_assoc, h5 _ (by omega)]
      have := h.cells i _ j v[j] hr (by simp [Row.full, hj])
      rw [this]
      simp [hj]
    · rw [if_neg hj, List.getElem?_eq_none (by simp; omega)]

/-- C37 for a pool filled with `push_back(vector)`. -/
theorem C37_toTensor_history (vs : List (List Int)) :
    ∃ p fl t, exec (vs.map .pushVec) Pool.empty = .ok (p, fl) ∧ p.toTensor = .ok t ∧
      t.length = vs.length + 2 + (vs.map List.length).sum ∧ t[0]? = some (some (vs.length : Int)) ∧
      ∀ i v, vs[i]? = some v → flatList t i = some (v.map some) := by
  have hrun : ∀ (l : List (List Int)) (rows : List (Row Int)),
      (PoolSpec.run (l.map .pushVec) rows).1 = rows ++ l.map Row.full := by
    intro l
    induction l with
    | nil => intro rows; simp [PoolSpec.run]
    | cons r l ih => intro rows; simp [PoolSpec.run, PoolSpec.step, ih]
  obtain ⟨p, h1, h2⟩ := exec_spec (vs.map .pushVec) (holds_empty (α := Int))
  rw [hrun, List.nil_append] at h2
  obtain ⟨t, h3, h4⟩ := C37_toTensor vs h2
  exact ⟨p, _, t, h1, h3, h4⟩

example : (exec [.pushVec [4, 5], .pushVec [], .pushVec [6]] Pool.empty >>= fun a => a.1.toTensor) =
    .ok [some 3, some 5, some 7, some 7, some 8, some 4, some 5, some (6 : Int)] := by decide

end Pool

end Cnine
