import Verif.Spec.TensorPack
import Mathlib.Tactic.Ring
import Mathlib.Data.List.Flatten
import Mathlib.Algebra.BigOperators.Group.List.Basic

namespace Cnine
namespace TPk

variable {α : Type}

/-! ### Cells -/

theorem readN_ok {b : Option (List (Option α))} {l : List (Option α)} {o n : Nat} (hb : b = some l ∨ n = 0) (h : o + n ≤ l.length ∨ n = 0) : readN b o n = .ok ((l.drop o).take n) := by
  unfold readN
  by_cases h0 : n = 0
  · rw [if_pos h0, h0, List.take_zero]
  · rw [if_neg h0]
    obtain rfl := hb.resolve_right h0
    dsimp only
    rw [if_pos (h.resolve_right h0)]

theorem readN_zero (b : Option (List (Option α))) (o : Nat) : readN b o 0 = .ok [] := by
  unfold readN
  rw [if_pos rfl]

theorem putN_ok {c l : List (Option α)} {o : Nat} (h : o + l.length ≤ c.length) : putN (some c) o l = .ok (some (c.take o ++ l ++ c.drop (o + l.length))) := by
  unfold putN
  by_cases h0 : l = []
  · rw [if_pos h0, h0, List.length_nil, Nat.add_zero, List.append_nil, List.take_append_drop]
  · rw [if_neg h0]
    dsimp only
    rw [if_pos h]

theorem vals_map (v : List α) : vals (v.map some) = .ok v := by
  induction v with
  | nil => rfl
  | cons a v ih => rw [List.map_cons, vals, ih, Res.ok_bind]

theorem vals_none {l : List (Option α)} (h : none ∈ l) : vals l = .ub := by
  induction l with
  | nil => exact absurd h List.not_mem_nil
  | cons a l ih =>
    cases a with
    | none => rfl
    | some a =>
      rw [vals, ih ((List.mem_cons.1 h).resolve_left (by simp)), Res.ub_bind]

theorem fresh_eq (n : Nat) : (fresh n : Option (List (Option α))) = some (List.replicate (max n 1) none) := rfl

/-- Cells put at the front of a new array. -/
theorem put_fresh (n : Nat) (l : List (Option α)) (h : l.length ≤ n) :
    putN (fresh n) 0 l = .ok (some (l ++ List.replicate (max n 1 - l.length) none)) := by
  rw [fresh_eq, putN_ok (by rw [List.length_replicate]; omega)]
  simp only [List.take_zero, List.nil_append, List.drop_replicate, Nat.zero_add]

/-! ### The directory -/

theorem rows_length (a : Nat) (L : List (Ten α)) : (rowsOf a L).length = L.length := by
  induction L generalizing a with
  | nil => rfl
  | cons x L ih => rw [rowsOf, List.length_cons, List.length_cons, ih]

theorem rows_append (a : Nat) (L M : List (Ten α)) : rowsOf a (L ++ M) = rowsOf a L ++ rowsOf (a + (cellsOf L).length) M := by
  induction L generalizing a with
  | nil => rfl
  | cons x L ih =>
    rw [List.cons_append, rowsOf, rowsOf, ih, List.cons_append]
    congr 3
    rw [cellsOf, cellsOf, List.map_cons, List.flatten_cons, List.length_append, Nat.add_assoc]

theorem cells_append (L M : List (Ten α)) : cellsOf (L ++ M) = cellsOf L ++ cellsOf M := by
  rw [cellsOf, List.map_append, List.flatten_append]
  rfl

theorem cells_single (x : Ten α) : cellsOf [x] = x.cells := by
  rw [cellsOf, List.map_cons, List.map_nil, List.flatten_cons, List.flatten_nil, List.append_nil]

theorem rows_all {nd : Nat} (a : Nat) {L : List (Ten α)} (h : ∀ x ∈ L, x.dims.length = nd) : ∀ r ∈ rowsOf a L, r.length = nd + 1 := by
  induction L generalizing a with
  | nil => intro r hr; exact absurd hr List.not_mem_nil
  | cons x L ih =>
    intro r hr
    rw [rowsOf] at hr
    rcases List.mem_cons.1 hr with rfl | hr
    · rw [List.length_cons, List.length_map, h x List.mem_cons_self]
    · exact ih _ (fun y hy => h y (List.mem_cons_of_mem _ hy)) r hr

theorem whole_ok {nd cap a : Nat} {L : List (Ten α)} (h : ∀ x ∈ L, x.dims.length = nd) : Dir.whole ⟨nd + 1, rowsOf a L, cap⟩ = .ok () := by
  unfold Dir.whole
  have e : (rowsOf a L).all (fun r => decide (r.length = nd + 1)) = true := List.all_eq_true.2 fun r hr => decide_eq_true (rows_all a h r hr)
  show Res.need ((rowsOf a L).all (fun r => decide (r.length = nd + 1))) = _
  rw [e]
  rfl

theorem dirPush_ok {nd cap a : Nat} {L : List (Ten α)} (h : ∀ x ∈ L, x.dims.length = nd) (x : Ten α) (hx : x.dims.length = nd) (hc : L.length ≤ cap) (ht : a = (cellsOf L).length) :
    ∃ cap', dirPush (some ⟨nd + 1, rowsOf 0 L, cap⟩) a x.dims = .ok (some ⟨nd + 1, rowsOf 0 (L ++ [x]), cap'⟩) ∧ (L ++ [x]).length < cap' := by
  have e : rowsOf 0 (L ++ [x]) = rowsOf 0 L ++ [some a :: x.dims.map some] := by
    rw [rows_append, Nat.zero_add, ← ht]
    rfl
  rw [e, dirPush]
  dsimp only
  rw [decide_eq_true (by rw [hx]), Res.assrt_true, Res.ok_bind, rows_length]
  by_cases h1 : cap ≤ L.length + 1
  · rw [if_pos h1, whole_ok h, Res.ok_bind]
    exact ⟨_, rfl, by rw [List.length_append, List.length_singleton]; omega⟩
  · rw [if_neg h1]
    exact ⟨_, rfl, by rw [List.length_append, List.length_singleton]; omega⟩

theorem dirPush_throw {nd cap a : Nat} {rows : List (List (Option Nat))} {x : List Nat} (hx : x.length ≠ nd) : dirPush (some ⟨nd + 1, rows, cap⟩) a x = .throw := by
  rw [dirPush]
  dsimp only
  rw [decide_eq_false (fun e => hx (Nat.add_right_cancel e).symm)]
  rfl

theorem dirCopy_ok {nd cap : Nat} {L : List (Ten α)} (h : ∀ x ∈ L, x.dims.length = nd) :
    dirCopy (some ⟨nd + 1, rowsOf 0 L, cap⟩) = .ok ⟨nd + 1, rowsOf 0 L, L.length⟩ := by
  rw [dirCopy]
  dsimp only
  rw [whole_ok h, Res.ok_bind, rows_length]

/-- Row `i` of the directory. -/
theorem rows_get (a : Nat) (L : List (Ten α)) (i : Nat) (h : i < L.length) :
    (rowsOf a L)[i]? = some (some (a + (cellsOf (L.take i)).length) :: L[i].dims.map some) := by
  induction L generalizing a i with
  | nil => exact absurd h (Nat.not_lt_zero _)
  | cons x L ih =>
    cases i with
    | zero => rfl
    | succ i =>
      rw [rowsOf, List.getElem?_cons_succ, ih _ _ (Nat.lt_of_succ_lt_succ h), List.take_succ_cons, cellsOf, cellsOf, List.map_cons, List.flatten_cons, List.length_append, Nat.add_assoc]
      rfl

theorem cells_split (L : List (Ten α)) (i : Nat) (h : i < L.length) : cellsOf L = cellsOf (L.take i) ++ L[i].cells ++ cellsOf (L.drop (i + 1)) := by
  conv_lhs => rw [← List.take_append_drop i L, List.drop_eq_getElem_cons h]
  rw [cells_append, List.append_assoc]
  rfl

theorem cells_le {L : List (Ten α)} {i : Nat} (h : i < L.length) : (cellsOf (L.take i)).length + L[i].cells.length ≤ (cellsOf L).length := by
  rw [cells_split L i h, List.length_append, List.length_append]
  omega

/-- All cells, read. -/
theorem Holds.read {p : TP α} {nd : Nat} {L : List (Ten α)} (h : Holds p nd L) : readN p.arr 0 p.tail = .ok (cellsOf L) := by
  rcases h.mem with ⟨h1, h2⟩ | ⟨l, h1, h2, h3⟩
  · have h4 : p.tail = 0 := by have := h.le; omega
    rw [h4, readN_zero]
    have := h.tail
    rw [h4] at this
    rw [List.length_eq_zero_iff.1 this.symm]
  · rw [readN_ok (Or.inl h1) (Or.inl (by have := h.le; omega)), List.drop_zero, h3]

/-- Some cells, read. -/
theorem Holds.readAt {p : TP α} {nd : Nat} {L : List (Ten α)} (h : Holds p nd L) {o n : Nat} (ho : o + n ≤ p.tail) : readN p.arr o n = .ok (((cellsOf L).drop o).take n) := by
  rcases h.mem with ⟨h1, h2⟩ | ⟨l, h1, h2, h3⟩
  · have h4 : n = 0 := by have := h.le; omega
    rw [h4, readN_zero, List.take_zero]
  · rw [readN_ok (Or.inl h1) (Or.inl (by have := h.le; omega)), ← h3, List.drop_take, List.take_take]
    congr 2
    omega

theorem Holds.dims {p : TP α} {nd : Nat} {L : List (Ten α)} (h : Holds p nd L) : ∀ x ∈ L, x.dims.length = nd := fun x hx => (h.ok x hx).1

/-- More room, the same tensors. -/
theorem reserve_holds {p : TP α} {nd : Nat} {L : List (Ten α)} (h : Holds p nd L) {n : Nat} (hn : p.memsize ≤ n ∨ 0 < n) :
    ∃ q, reserve p n = .ok q ∧ Holds q nd L ∧ n ≤ q.memsize ∧ q.dir = p.dir ∧ q.tail = p.tail ∧ (p.memsize < n → ∃ l, q.arr = some l) := by
  unfold reserve
  by_cases h0 : n ≤ p.memsize ∧ 0 < n
  · rw [if_pos h0]
    exact ⟨p, rfl, h, h0.1, rfl, rfl, fun h => absurd h (by omega)⟩
  · rw [if_neg h0]
    rcases h.mem with ⟨h1, h2⟩ | ⟨l, h1, h2, h3⟩
    · rw [h1]
      have h4 : p.tail = 0 := by have := h.le; omega
      refine ⟨_, rfl, ⟨h.ok, h.dir, h.tail, ?_, Or.inr ⟨_, rfl, List.length_replicate, ?_⟩⟩, Nat.le_refl _, rfl, rfl, fun _ => ⟨_, rfl⟩⟩
      · show p.tail ≤ n
        omega
      · show List.take p.tail _ = _
        have := h.tail
        rw [h4] at this ⊢
        rw [List.length_eq_zero_iff.1 this.symm, List.take_zero]
    · rw [h1]
      have hl := h.le
      dsimp only
      rw [readN_ok (Or.inl rfl) (Or.inl (by omega)), Res.ok_bind, List.drop_zero, put_fresh _ _ (by rw [List.length_take]; omega), Res.ok_bind]
      refine ⟨_, rfl, ⟨h.ok, h.dir, h.tail, ?_, Or.inr ⟨_, rfl, ?_, ?_⟩⟩, Nat.le_refl _, rfl, rfl, fun _ => ⟨_, rfl⟩⟩
      · show p.tail ≤ n
        omega
      · show _ = max n 1
        rw [List.length_append, List.length_replicate, List.length_take]
        omega
      · show List.take p.tail _ = _
        rw [List.take_append_of_le_length (by rw [List.length_take]; omega), List.take_take, Nat.min_eq_left hl, h3]

theorem room_holds {p : TP α} {nd : Nat} {L : List (Ten α)} (h : Holds p nd L) (n : Nat) :
    ∃ q, room p n = .ok q ∧ Holds q nd L ∧ q.tail + n ≤ q.memsize ∧ q.dir = p.dir ∧ q.tail = p.tail := by
  unfold room
  by_cases h0 : p.memsize < p.tail + n
  · rw [if_pos h0]
    obtain ⟨q, e, hq, h1, h2, h3, _⟩ := reserve_holds h (n := max (2 * p.memsize) (p.tail + n)) (Or.inl (by omega))
    exact ⟨q, e, hq, by omega, h2, h3⟩
  · rw [if_neg h0]
    exact ⟨p, rfl, h, by omega, rfl, rfl⟩

/-- A tensor written behind the others. -/
theorem append_holds {p : TP α} {nd : Nat} {L : List (Ten α)} (h : Holds p nd L) {x : Ten α} (hx : x.Ok nd) (hr : p.tail + x.cells.length ≤ p.memsize) :
    ∃ a d, putN p.arr p.tail x.cells = .ok a ∧ dirPush p.dir p.tail x.dims = .ok d ∧ Holds { p with arr := a, dir := d, tail := p.tail + x.cells.length } nd (L ++ [x]) := by
  obtain ⟨cap, hd, hc⟩ := h.dir
  obtain ⟨cap', e, hc'⟩ := dirPush_ok h.dims x hx.1 hc h.tail
  have hok : ∀ y ∈ L ++ [x], y.Ok nd := fun y hy => by
    rcases List.mem_append.1 hy with hy | hy
    · exact h.ok y hy
    · rw [List.mem_singleton.1 hy]; exact hx
  have ht : p.tail + x.cells.length = (cellsOf (L ++ [x])).length := by
    rw [cells_append, cells_single, List.length_append, h.tail]
  rw [hd, e]
  rcases h.mem with ⟨h1, h2⟩ | ⟨l, h1, h2, h3⟩
  · have h4 : x.cells = [] := List.length_eq_zero_iff.1 (by omega)
    have h5 : p.tail = 0 := by omega
    refine ⟨p.arr, _, by rw [h4]; exact if_pos rfl, rfl, hok, ⟨_, rfl, by omega⟩, ht, hr, Or.inl ⟨h1, h2⟩⟩
  · rw [h1, putN_ok (by omega)]
    refine ⟨_, _, rfl, rfl, hok, ⟨_, rfl, by omega⟩, ht, hr, Or.inr ⟨_, rfl, ?_, ?_⟩⟩
    · show _ = max p.memsize 1
      rw [List.length_append, List.length_append, List.length_take, List.length_drop]
      omega
    · show List.take (p.tail + x.cells.length) _ = _
      rw [List.take_left' (by rw [List.length_append, List.length_take]; omega), h3, cells_append, cells_single]

/-! ### Constructors -/

theorem blocks_succ (f : Nat → Option α) (dims : List Nat) (N : Nat) :
    blocksOf f dims (N + 1) = blocksOf f dims N ++ [⟨dims, (List.range dims.prod).map fun j => f (N * dims.prod + j)⟩] := by
  rw [blocksOf, List.range_succ, List.map_append]
  rfl

theorem blocks_cells (f : Nat → Option α) (dims : List Nat) (N : Nat) : cellsOf (blocksOf f dims N) = (List.range (N * dims.prod)).map f := by
  induction N with
  | zero => rw [Nat.zero_mul]; rfl
  | succ N ih =>
    rw [blocks_succ, cells_append, cells_single, ih, Nat.succ_mul, List.range_add, List.map_append, List.map_map]
    rfl

theorem blocks_ok (f : Nat → Option α) (dims : List Nat) (N : Nat) : ∀ x ∈ blocksOf f dims N, x.Ok dims.length := by
  intro x hx
  obtain ⟨i, _, rfl⟩ := List.mem_map.1 hx
  exact ⟨rfl, by rw [List.length_map, List.length_range]⟩

theorem blocks_length (f : Nat → Option α) (dims : List Nat) (N : Nat) : (blocksOf f dims N).length = N := by
  rw [blocksOf, List.length_map, List.length_range]

theorem pushAll_ok (f : Nat → Option α) (dims : List Nat) (N : Nat) :
    ∃ cap, pushAll (some (Dir.empty (dims.length + 1))) N dims = .ok (some ⟨dims.length + 1, rowsOf 0 (blocksOf f dims N), cap⟩) ∧ N ≤ cap := by
  induction N with
  | zero => exact ⟨0, rfl, Nat.le_refl _⟩
  | succ N ih =>
    obtain ⟨cap, e, hc⟩ := ih
    rw [pushAll] at e ⊢
    rw [List.range_succ, Res.forM_append, e, Res.ok_bind, Res.forM_cons]
    have hl := blocks_cells f dims N
    obtain ⟨cap', e', hc'⟩ := dirPush_ok (L := blocksOf f dims N) (a := N * dims.prod) (fun x hx => (blocks_ok f dims N x hx).1)
      ⟨dims, (List.range dims.prod).map fun j => f (N * dims.prod + j)⟩ rfl (cap := cap) ((blocks_length f dims N).le.trans hc) (by rw [hl, List.length_map, List.length_range])
    dsimp only at e'
    rw [e', Res.ok_bind, ← blocks_succ]
    rw [← blocks_succ, blocks_length] at hc'
    exact ⟨cap', rfl, by omega⟩

/-- A new pack with all cells at once. -/
theorem fill_holds {d : Option Dir} {nd : Nat} {L : List (Ten α)} (h : ∀ x ∈ L, x.Ok nd) (hd : ∃ cap, d = some ⟨nd + 1, rowsOf 0 L, cap⟩ ∧ L.length ≤ cap) {n m : Nat}
    (hn : n = (cellsOf L).length) (hm : n ≤ m) (l : List (Option α)) (hl : l.length = max m 1) (e : l.take n = cellsOf L) : Holds (⟨some l, m, n, d⟩ : TP α) nd L :=
  ⟨h, hd, hn, hm, Or.inr ⟨l, rfl, hl, e⟩⟩

theorem cut_cells (c : List (Option α)) (l : List (List Nat)) (h : (l.map List.prod).sum = c.length) : cellsOf (cut c l) = c := by
  induction l generalizing c with
  | nil =>
    rw [List.map_nil, List.sum_nil] at h
    rw [List.length_eq_zero_iff.1 h.symm]
    rfl
  | cons d l ih =>
    rw [List.map_cons, List.sum_cons] at h
    show c.take d.prod ++ cellsOf (cut (c.drop d.prod) l) = c
    rw [ih _ (by rw [List.length_drop]; omega), List.take_append_drop]

theorem cut_ok (c : List (Option α)) (l : List (List Nat)) (h : (l.map List.prod).sum = c.length) {nd : Nat} (hl : ∀ d ∈ l, d.length = nd) : ∀ x ∈ cut c l, x.Ok nd := by
  induction l generalizing c with
  | nil => intro x hx; exact absurd hx List.not_mem_nil
  | cons d l ih =>
    rw [List.map_cons, List.sum_cons] at h
    intro x hx
    rcases List.mem_cons.1 hx with rfl | hx
    · exact ⟨hl d List.mem_cons_self, by show (c.take d.prod).length = d.prod; rw [List.length_take]; omega⟩
    · exact ih _ (by rw [List.length_drop]; omega) (fun d hd => hl d (List.mem_cons_of_mem _ hd)) x hx

theorem cut_length (c : List (Option α)) (l : List (List Nat)) : (cut c l).length = l.length := by
  induction l generalizing c with
  | nil => rfl
  | cons d l ih => rw [cut, List.length_cons, ih, List.length_cons]

theorem pushDims_ok {nd : Nat} (l : List (List Nat)) (hl : ∀ d ∈ l, d.length = nd) (L : List (Ten α)) (c : List (Option α)) (h : (l.map List.prod).sum = c.length)
    (hL : ∀ x ∈ L, x.dims.length = nd) {cap : Nat} (hc : L.length ≤ cap) :
    ∃ cap', pushDims (some ⟨nd + 1, rowsOf 0 L, cap⟩) (cellsOf L).length l = .ok (some ⟨nd + 1, rowsOf 0 (L ++ cut c l), cap'⟩, (cellsOf L).length + c.length) ∧ L.length + l.length ≤ cap' := by
  induction l generalizing L c cap with
  | nil =>
    rw [List.map_nil, List.sum_nil] at h
    exact ⟨cap, by rw [pushDims, ← h, cut, List.append_nil]; rfl, hc⟩
  | cons d l ih =>
    rw [List.map_cons, List.sum_cons] at h
    obtain ⟨cap', e, hc'⟩ := dirPush_ok hL ⟨d, c.take d.prod⟩ (hl d List.mem_cons_self) hc rfl
    rw [pushDims]
    dsimp only at e
    rw [e, Res.ok_bind]
    have e1 : (cellsOf L).length + d.prod = (cellsOf (L ++ [⟨d, c.take d.prod⟩])).length := by
      rw [cells_append, cells_single, List.length_append, List.length_take]
      omega
    rw [e1]
    obtain ⟨cap'', e2, hc''⟩ := ih (fun d hd => hl d (List.mem_cons_of_mem _ hd)) (L ++ [⟨d, c.take d.prod⟩]) (c.drop d.prod) (by rw [List.length_drop]; omega)
      (fun x hx => by
        rcases List.mem_append.1 hx with hx | hx
        · exact hL x hx
        · rw [List.mem_singleton.1 hx]; exact hl d List.mem_cons_self) (Nat.le_of_lt hc')
    refine ⟨cap'', ?_, ?_⟩
    · rw [e2, ← e1, List.append_assoc, List.length_drop]
      show Res.ok (some (⟨nd + 1, rowsOf 0 (L ++ cut c (d :: l)), cap''⟩ : Dir), _) = _
      congr 2
      omega
    · rw [List.length_append, List.length_singleton] at hc''
      rw [List.length_cons]
      omega

/-- A list of sizes of another length stops the loop. -/
theorem pushDims_throw {nd : Nat} (l : List (List Nat)) (hl : ∃ d ∈ l, d.length ≠ nd) (L : List (Ten α)) (hL : ∀ x ∈ L, x.dims.length = nd) {cap : Nat} (hc : L.length ≤ cap) :
    pushDims (some ⟨nd + 1, rowsOf 0 L, cap⟩) (cellsOf L).length l = .throw := by
  induction l generalizing L cap with
  | nil => obtain ⟨d, hd, _⟩ := hl; exact absurd hd List.not_mem_nil
  | cons d l ih =>
    rw [pushDims]
    by_cases h : d.length = nd
    · obtain ⟨cap', e, hc'⟩ := dirPush_ok hL ⟨d, List.replicate d.prod none⟩ h hc rfl
      dsimp only at e
      rw [e, Res.ok_bind]
      have e1 : (cellsOf L).length + d.prod = (cellsOf (L ++ [⟨d, List.replicate d.prod none⟩])).length := by
        rw [cells_append, cells_single, List.length_append, List.length_replicate]
      rw [e1]
      refine ih ?_ _ (fun x hx => ?_) (Nat.le_of_lt hc')
      · obtain ⟨d', hd', hne⟩ := hl
        rcases List.mem_cons.1 hd' with rfl | hd'
        · exact absurd h hne
        · exact ⟨d', hd', hne⟩
      · rcases List.mem_append.1 hx with hx | hx
        · exact hL x hx
        · rw [List.mem_singleton.1 hx]; exact h
    · rw [dirPush_throw h]
      rfl

end TPk
end Cnine
