/-
Packs of tensors of different sizes on the CPU (legacy/tensor/RtensorPack.hpp): what the functions hold, as lists of tensors.
-/
import Verif.Lemmas.TensorPack

namespace Cnine
namespace TPk

variable {α : Type}

/-! ### C568: constructors -/

/-- The empty pack. -/
theorem C568_empty (nd : Nat) : Holds (empty nd : TP α) nd [] :=
  ⟨fun x hx => absurd hx List.not_mem_nil, ⟨0, rfl, Nat.le_refl _⟩, rfl, Nat.le_refl _, Or.inl ⟨rfl, rfl⟩⟩

theorem new_ok (dims : List Nat) (n : Nat) :
    reserve (empty dims.length : TP α) n = .ok ⟨some (List.replicate (max n 1) none), n, 0, some (Dir.empty (dims.length + 1))⟩ := by
  unfold reserve
  have h : ¬ (n ≤ (empty dims.length : TP α).memsize ∧ 0 < n) := fun h => by
    have h1 : n ≤ 0 := h.1
    omega
  rw [if_neg h]
  rfl

theorem take_fill (f : Nat → Option α) (n m : Nat) : ((List.range n).map f ++ List.replicate m none).take n = (List.range n).map f :=
  List.take_left' (by rw [List.length_map, List.length_range])

/-- `N` tensors of the same sizes, the numbers not yet written. -/
theorem C568_raw (N : Nat) (dims : List Nat) : ∃ p : TP α, rawN N dims = .ok p ∧ Holds p dims.length (blocksOf (fun _ => none) dims N) := by
  obtain ⟨cap, e, hc⟩ := pushAll_ok (fun _ => (none : Option α)) dims N
  rw [rawN, new_ok, Res.ok_bind]
  dsimp only
  rw [e, Res.ok_bind]
  refine ⟨_, rfl, fill_holds (blocks_ok _ _ _) ⟨cap, rfl, by rw [blocks_length]; exact hc⟩ (by rw [blocks_cells, List.length_map, List.length_range]) (Nat.le_refl _) _ List.length_replicate ?_⟩
  rw [blocks_cells, List.take_replicate, Nat.min_eq_left (Nat.le_max_left _ _)]
  exact List.eq_replicate_iff.2 ⟨by rw [List.length_map, List.length_range], fun b hb => by obtain ⟨_, _, rfl⟩ := List.mem_map.1 hb; rfl⟩ |>.symm

/-- `N` tensors of the same sizes with given numbers, `i` or random. -/
theorem C568_fill (f : Nat → α) (N : Nat) (dims : List Nat) : ∃ p : TP α, fillN f N dims = .ok p ∧ Holds p dims.length (blocksOf (fun i => some (f i)) dims N) := by
  obtain ⟨cap, e, hc⟩ := pushAll_ok (fun i => some (f i)) dims N
  rw [fillN, new_ok, Res.ok_bind]
  dsimp only
  rw [← fresh_eq, put_fresh _ _ (by rw [List.length_map, List.length_range]), Res.ok_bind, e, Res.ok_bind]
  refine ⟨_, rfl, fill_holds (blocks_ok _ _ _) ⟨cap, rfl, by rw [blocks_length]; exact hc⟩ (by rw [blocks_cells, List.length_map, List.length_range]) (Nat.le_refl _) _ ?_ ?_⟩
  · rw [List.length_append, List.length_map, List.length_range, List.length_replicate]
    omega
  · rw [take_fill, blocks_cells]

/-- `N` tensors of zeros. -/
theorem C568_zeros [Zero α] (N : Nat) (dims : List Nat) : ∃ p : TP α, zerosN N dims = .ok p ∧ Holds p dims.length (blocksOf (fun _ => some 0) dims N) := by
  have h : (zerosN N dims : Res (TP α)) = fillN (fun _ => 0) N dims := by
    rw [zerosN, fillN, new_ok, Res.ok_bind, Res.ok_bind]
    dsimp only
    have e : (List.range (N * dims.prod)).map (fun _ => some (0 : α)) = List.replicate (N * dims.prod) (some 0) :=
      List.eq_replicate_iff.2 ⟨by rw [List.length_map, List.length_range], fun b hb => by obtain ⟨_, _, rfl⟩ := List.mem_map.1 hb; rfl⟩
    rw [e]
  rw [h]
  exact C568_fill _ _ _

theorem cut_zeros [Zero α] (l : List (List Nat)) :
    cut (List.replicate (l.map List.prod).sum (some (0 : α))) l = l.map fun d => ⟨d, List.replicate d.prod (some 0)⟩ := by
  induction l with
  | nil => rfl
  | cons d l ih =>
    rw [List.map_cons, List.sum_cons, cut, List.map_cons, List.take_replicate, List.drop_replicate, Nat.min_eq_left (by omega), Nat.add_sub_cancel_left, ih]

/-- Zeros with the sizes of a list: they must all have the same number of sizes. -/
theorem C568_pool_partial [Zero α] (l : List (List Nat)) (h0 : l ≠ []) :
    if ∀ d ∈ l, d.length = (l.headI).length then ∃ p : TP α, ofPool l = .ok p ∧ Holds p (l.headI).length (l.map fun d => ⟨d, List.replicate d.prod (some 0)⟩)
    else (ofPool l : Res (TP α)) = .throw := by
  obtain ⟨v, l, rfl⟩ := List.exists_cons_of_ne_nil h0
  have key : ofPool (v :: l) = (do
      let (d, t) ← pushDims (some ⟨v.length + 1, rowsOf 0 ([] : List (Ten α)), 0⟩) (cellsOf ([] : List (Ten α))).length (v :: l)
      .ok (⟨some (List.replicate ((v :: l).map List.prod).sum (some 0) ++ List.replicate (max ((v :: l).map List.prod).sum 1 - ((v :: l).map List.prod).sum) none),
        ((v :: l).map List.prod).sum, t, d⟩ : TP α)) := by
    unfold ofPool
    dsimp only
    have e : reserve ({ default with dir := some (Dir.empty (v.length + 1)) } : TP α) ((v :: l).map List.prod).sum =
        .ok ⟨fresh ((v :: l).map List.prod).sum, ((v :: l).map List.prod).sum, 0, some (Dir.empty (v.length + 1))⟩ := new_ok v _
    rw [e, Res.ok_bind]
    dsimp only
    rw [put_fresh _ _ (by rw [List.length_replicate]), Res.ok_bind, List.length_replicate]
    rfl
  rw [key]
  split
  case isTrue h =>
    obtain ⟨cap, e, hc⟩ := pushDims_ok (v :: l) h [] (List.replicate ((v :: l).map List.prod).sum (some (0 : α))) (by rw [List.length_replicate]) (fun x hx => absurd hx List.not_mem_nil) (cap := 0)
      (Nat.le_refl _)
    rw [show List.headI (v :: l) = v from rfl] at e
    rw [e, Res.ok_bind, List.nil_append, cut_zeros]
    rw [← cut_zeros]
    have hs : ((v :: l).map List.prod).sum = (List.replicate ((v :: l).map List.prod).sum (some (0 : α))).length := by rw [List.length_replicate]
    refine ⟨_, rfl, fill_holds (cut_ok _ _ hs h) ⟨cap, rfl, by rw [cut_length]; simpa using hc⟩ ?_ ?_ _ ?_ ?_⟩
    · rw [cut_cells _ _ hs]
      exact Nat.zero_add _
    · rw [List.length_replicate]
      exact (Nat.zero_add _).le
    · rw [List.length_append, List.length_replicate, List.length_replicate]
      omega
    · rw [cut_cells _ _ hs]
      exact List.take_left' (by rw [List.length_replicate]; exact (Nat.zero_add _).symm)
  case isFalse h =>
    have h' : ∃ d ∈ v :: l, d.length ≠ v.length := by
      by_contra hn
      exact h fun d hd => by_contra fun hne => hn ⟨d, hd, hne⟩
    rw [pushDims_throw (v :: l) h' [] (fun x hx => absurd hx List.not_mem_nil) (cap := 0) (Nat.le_refl _)]
    rfl

theorem room_none (n : Nat) : ∃ q : TP α, room ⟨fresh 0, 0, 0, some (Dir.empty 0)⟩ n = .ok q ∧ q.dir = some (Dir.empty 0) ∧ q.tail = 0 ∧ ∃ l, q.arr = some l ∧ n ≤ l.length := by
  unfold room
  by_cases h : 0 < n
  · rw [if_pos (show (0 : Nat) < 0 + n by omega)]
    unfold reserve
    rw [if_neg (show ¬ (max (2 * 0) (0 + n) ≤ 0 ∧ _) from fun h => by omega), fresh_eq]
    dsimp only
    rw [readN_zero, Res.ok_bind, put_fresh _ _ (Nat.zero_le _), Res.ok_bind]
    exact ⟨_, rfl, rfl, rfl, _, rfl, by rw [List.nil_append, List.length_replicate, List.length_nil]; omega⟩
  · rw [if_neg (show ¬ (0 : Nat) < 0 + n by omega)]
    exact ⟨_, rfl, rfl, rfl, _, rfl, by omega⟩

/-- Of an empty list of sizes a pack is made to which nothing can be added: every `push_back` throws. -/
theorem C568_pool_fails [Zero α] : ∃ p : TP α, ofPool [] = .ok p ∧ (∀ x : Ten α, push p x = .throw) ∧ (∀ d, pushRaw p d = .throw) ∧ ∀ d, pushZero p d = .throw := by
  refine ⟨⟨fresh 0, 0, 0, some (Dir.empty 0)⟩, rfl, fun x => ?_, fun d => ?_, fun d => ?_⟩
  · obtain ⟨q, e, h1, h2, l, h3, h4⟩ := room_none (α := α) x.cells.length
    rw [push, e, Res.ok_bind, h1, h2, h3, putN_ok (by omega)]
    rfl
  · obtain ⟨q, e, h1, h2, l, h3, h4⟩ := room_none (α := α) d.prod
    rw [pushRaw, e, Res.ok_bind, h1]
    rfl
  · obtain ⟨q, e, h1, h2, l, h3, h4⟩ := room_none (α := α) d.prod
    rw [pushZero, e, Res.ok_bind, h1, h2, h3, putN_ok (by rw [List.length_replicate]; omega)]
    rfl

example : (ofPool [[2], [3]] : Res (TP Int)) = .ok ⟨some [some 0, some 0, some 0, some 0, some 0], 5, 5, some ⟨2, [[some 0, some 2], [some 2, some 3]], 4⟩⟩ := by decide +kernel

example : (ofPool [[2], [3, 1]] : Res (TP Int)) = .throw := by decide +kernel

example : (fillN (fun i => (i : Int)) 2 [3] : Res (TP Int)) = .ok ⟨some [some 0, some 1, some 2, some 3, some 4, some 5], 6, 6, some ⟨2, [[some 0, some 3], [some 3, some 3]], 4⟩⟩ := by
  decide +kernel

example : blocksOf (fun i => some (i : Int)) [3] 2 = [Ten.of [3] [0, 1, 2], Ten.of [3] [3, 4, 5]] := by decide +kernel

/-! ### C569: adding tensors -/

/-- `push_back(x)` adds a tensor at the end; a tensor with another number of sizes throws. -/
theorem C569_push {p : TP α} {nd : Nat} {L : List (Ten α)} (h : Holds p nd L) (x : Ten α) (hx : x.cells.length = x.dims.prod) :
    if x.dims.length = nd then ∃ q, push p x = .ok q ∧ Holds q nd (L ++ [x]) else push p x = .throw := by
  obtain ⟨q, e, hq, h1, h2, h3⟩ := room_holds h x.cells.length
  rw [push, e, Res.ok_bind]
  split
  case isTrue hn =>
    obtain ⟨a, d, e1, e2, h4⟩ := append_holds hq ⟨hn, hx⟩ h1
    rw [e1, Res.ok_bind, e2, Res.ok_bind]
    exact ⟨_, rfl, h4⟩
  case isFalse hn =>
    have e1 : ∃ a, putN q.arr q.tail x.cells = .ok a := by
      rcases hq.mem with ⟨g1, g2⟩ | ⟨l, g1, g2, g3⟩
      · exact ⟨q.arr, if_pos (List.length_eq_zero_iff.1 (by omega))⟩
      · rw [g1]; exact ⟨_, putN_ok (by omega)⟩
    obtain ⟨a, e1⟩ := e1
    obtain ⟨cap, hd, _⟩ := hq.dir
    rw [e1, Res.ok_bind, hd, dirPush_throw hn]
    rfl

/-- `push_back_zero(dims)` adds a tensor of zeros. -/
theorem C569_zero [Zero α] {p : TP α} {nd : Nat} {L : List (Ten α)} (h : Holds p nd L) (dims : List Nat) :
    if dims.length = nd then ∃ q, pushZero p dims = .ok q ∧ Holds q nd (L ++ [⟨dims, List.replicate dims.prod (some 0)⟩]) else pushZero p dims = .throw := by
  have e : pushZero p dims = push p ⟨dims, List.replicate dims.prod (some 0)⟩ := by
    rw [pushZero, push]
    dsimp only
    rw [List.length_replicate]
  rw [e]
  exact C569_push h ⟨dims, List.replicate dims.prod (some 0)⟩ List.length_replicate

/-- `push_back_raw(dims)` adds a tensor whose cells hold whatever they held. -/
theorem C569_raw {p : TP α} {nd : Nat} {L : List (Ten α)} (h : Holds p nd L) (dims : List Nat) :
    if dims.length = nd then ∃ q c, pushRaw p dims = .ok q ∧ Holds q nd (L ++ [⟨dims, c⟩]) else pushRaw p dims = .throw := by
  obtain ⟨q, e, hq, h1, h2, h3⟩ := room_holds h dims.prod
  rw [pushRaw, e, Res.ok_bind]
  split
  case isTrue hn =>
    obtain ⟨cap, hd, hc⟩ := hq.dir
    rcases hq.mem with ⟨g1, g2⟩ | ⟨l, g1, g2, g3⟩
    · have hx : (⟨dims, []⟩ : Ten α).Ok nd := ⟨hn, by show 0 = dims.prod; omega⟩
      obtain ⟨a, d, e1, e2, h4⟩ := append_holds hq hx (by show q.tail + 0 ≤ _; omega)
      dsimp only at e2
      rw [e2, Res.ok_bind]
      have e1' : q.arr = a := by rw [show putN q.arr q.tail [] = .ok q.arr from if_pos rfl] at e1; exact Res.ok.inj e1
      refine ⟨_, [], rfl, ?_⟩
      rw [show dims.prod = 0 by omega]
      subst e1'
      exact h4
    · have hlen : ((l.drop q.tail).take dims.prod).length = dims.prod := by rw [List.length_take, List.length_drop]; omega
      obtain ⟨a, d, e1, e2, h4⟩ := append_holds hq (x := ⟨dims, (l.drop q.tail).take dims.prod⟩) ⟨hn, hlen⟩ (by show q.tail + ((l.drop q.tail).take dims.prod).length ≤ _; omega)
      dsimp only at e1 e2 h4
      rw [e2, Res.ok_bind]
      refine ⟨_, (l.drop q.tail).take dims.prod, rfl, ?_⟩
      have e1' : q.arr = a := by
        rw [g1, putN_ok (by omega)] at e1
        rw [g1, ← Res.ok.inj e1, hlen, List.append_assoc, ← List.drop_drop, List.take_append_drop, List.take_append_drop]
      rw [hlen] at h4
      subst e1'
      exact h4
  case isFalse hn =>
    obtain ⟨cap, hd, _⟩ := hq.dir
    rw [hd, dirPush_throw hn]
    rfl

example : (do
    let p ← push (empty 2) (Ten.of [2, 2] [1, 2, 3, 4])
    let p ← push p (Ten.of [1, 3] [5, 6, 7])
    let p ← pushZero p [1, 1]
    tensor p 1 : Res (Ten Int)) = .ok (Ten.of [1, 3] [5, 6, 7]) := by decide +kernel

example : (do
    let p ← push (empty 2) (Ten.of [2, 2] [1, 2, 3, 4])
    push p (Ten.of [3] [5, 6, 7]) : Res (TP Int)) = .throw := by decide +kernel

/-- A pack with two matrices of different sizes. -/
example : ∃ p : TP Int, Holds p 2 [Ten.of [2, 2] [1, 2, 3, 4], Ten.of [1, 3] [5, 6, 7]] := by
  obtain ⟨p, _, hp⟩ := (if_pos (by decide)).mp (C569_push (C568_empty 2) (Ten.of [2, 2] [1, 2, 3, 4] : Ten Int) rfl)
  obtain ⟨q, _, hq⟩ := (if_pos (by decide)).mp (C569_push hp (Ten.of [1, 3] [5, 6, 7]) rfl)
  exact ⟨q, hq⟩

/-! ### C570: reading -/

theorem row_ok {p : TP α} {nd : Nat} {L : List (Ten α)} (h : Holds p nd L) {i : Nat} (hi : i < L.length) :
    rowOf p i = .ok (some (cellsOf (L.take i)).length :: L[i].dims.map some) := by
  obtain ⟨cap, hd, _⟩ := h.dir
  rw [rowOf, dirOf, hd]
  dsimp only
  rw [Res.ok_bind]
  dsimp only
  rw [rows_get 0 L i hi, Nat.zero_add]
  dsimp only
  rw [if_pos (by rw [List.length_cons, List.length_map, h.dims _ (List.getElem_mem hi)])]

/-- The number of tensors. -/
theorem C570_size {p : TP α} {nd : Nat} {L : List (Ten α)} (h : Holds p nd L) : size p = .ok L.length := by
  obtain ⟨cap, hd, _⟩ := h.dir
  rw [size, dirOf, hd]
  dsimp only
  rw [Res.ok_bind, rows_length]

/-- The sizes of tensor `i`. -/
theorem C570_dims {p : TP α} {nd : Nat} {L : List (Ten α)} (h : Holds p nd L) {i : Nat} (hi : i < L.length) : dimsOf p i = .ok L[i].dims := by
  rw [dimsOf, row_ok h hi, Res.ok_bind, List.drop_succ_cons, List.drop_zero, vals_map]

/-- Size `j` of tensor `i`. -/
theorem C570_dim {p : TP α} {nd : Nat} {L : List (Ten α)} (h : Holds p nd L) {i j : Nat} (hi : i < L.length) (hj : j < nd) :
    dimOf p i j = .ok (L[i].dims[j]'(by rw [h.dims _ (List.getElem_mem hi)]; exact hj)) := by
  rw [dimOf, row_ok h hi, Res.ok_bind, Nat.add_comm, List.getElem?_cons_succ, List.getElem?_map, List.getElem?_eq_getElem (by rw [h.dims _ (List.getElem_mem hi)]; exact hj)]
  rfl

theorem addr_ok {p : TP α} {nd : Nat} {L : List (Ten α)} (h : Holds p nd L) {i : Nat} (hi : i < L.length) : addrOf p i = .ok (cellsOf (L.take i)).length := by
  rw [addrOf, row_ok h hi, Res.ok_bind]
  rfl

/-- Tensor `i`. -/
theorem C570_tensor {p : TP α} {nd : Nat} {L : List (Ten α)} (h : Holds p nd L) {i : Nat} (hi : i < L.length) : tensor p i = .ok L[i] := by
  have hl := cells_le hi
  rw [tensor, C570_dims h hi, Res.ok_bind, addr_ok h hi, Res.ok_bind, ← (h.ok _ (List.getElem_mem hi)).2, h.readAt (by rw [h.tail]; exact hl), Res.ok_bind,
    cells_split L i hi, List.append_assoc, List.drop_left, List.take_left]

/-- A position beyond the end is undefined. -/
theorem C570_beyond {p : TP α} {nd : Nat} {L : List (Ten α)} (h : Holds p nd L) {i : Nat} (hi : L.length ≤ i) : tensor p i = .ub ∧ addrOf p i = .ub ∧ dimsOf p i = .ub := by
  obtain ⟨cap, hd, _⟩ := h.dir
  have e : rowOf p i = .ub := by
    rw [rowOf, dirOf, hd]
    dsimp only
    rw [Res.ok_bind]
    dsimp only
    rw [List.getElem?_eq_none (by rw [rows_length]; exact hi)]
  exact ⟨by rw [tensor, dimsOf, e]; rfl, by rw [addrOf, e]; rfl, by rw [dimsOf, e]; rfl⟩

theorem shows_ok {p : TP α} {nd : Nat} {L : List (Ten α)} (h : Holds p nd L) {i : Nat} (hi : i < L.length) (st : List Nat) : Shows p L i hi ((cellsOf (L.take i)).length, L[i].dims, st) := by
  refine ⟨rfl, fun c hc => ?_⟩
  have hl := cells_le hi
  dsimp only
  rw [h.readAt (by rw [h.tail]; omega), cells_split L i hi, List.append_assoc, List.drop_append, List.drop_of_length_le (by omega), List.nil_append, Nat.add_sub_cancel_left, List.drop_append_of_le_length (by omega),
    List.take_append_of_le_length (by rw [List.length_drop]; omega)]

/-- `view1_of(i)` shows tensor `i`, which must have one size. -/
theorem C570_view1 {p : TP α} {nd : Nat} {L : List (Ten α)} (h : Holds p nd L) {i : Nat} (hi : i < L.length) :
    if nd = 1 then ∃ v, view1 p i = .ok v ∧ Shows p L i hi v ∧ v.2.2 = [1] else view1 p i = .throw := by
  have hd := h.dims _ (List.getElem_mem hi)
  have e := shows_ok h hi
  rw [view1, row_ok h hi, Res.ok_bind, show some (cellsOf (L.take i)).length :: L[i].dims.map some = ((cellsOf (L.take i)).length :: L[i].dims).map some from rfl, vals_map, Res.ok_bind]
  generalize L[i].dims = D at hd e ⊢
  subst hd
  match D with
  | [] => rfl
  | [a] => exact ⟨_, rfl, e _, rfl⟩
  | _ :: _ :: _ => rw [if_neg (by simp)]

/-- `view2_of(i)` shows tensor `i`, which must have two sizes. -/
theorem C570_view2 {p : TP α} {nd : Nat} {L : List (Ten α)} (h : Holds p nd L) {i : Nat} (hi : i < L.length) :
    if nd = 2 then ∃ v, view2 p i = .ok v ∧ Shows p L i hi v ∧ v.2.2 = [L[i].dims[1]!, 1] else view2 p i = .throw := by
  have hd := h.dims _ (List.getElem_mem hi)
  have e := shows_ok h hi
  rw [view2, row_ok h hi, Res.ok_bind, show some (cellsOf (L.take i)).length :: L[i].dims.map some = ((cellsOf (L.take i)).length :: L[i].dims).map some from rfl, vals_map, Res.ok_bind]
  generalize L[i].dims = D at hd e ⊢
  subst hd
  match D with
  | [] => rfl
  | [_] => rfl
  | [a, b] => exact ⟨_, rfl, e _, rfl⟩
  | _ :: _ :: _ :: _ => rw [if_neg (by simp)]

/-- `view3_of(i)` shows tensor `i`, which must have three sizes. -/
theorem C570_view3 {p : TP α} {nd : Nat} {L : List (Ten α)} (h : Holds p nd L) {i : Nat} (hi : i < L.length) :
    if nd = 3 then ∃ v, view3 p i = .ok v ∧ Shows p L i hi v ∧ v.2.2 = [L[i].dims[1]! * L[i].dims[2]!, L[i].dims[2]!, 1] else view3 p i = .throw := by
  have hd := h.dims _ (List.getElem_mem hi)
  have e := shows_ok h hi
  rw [view3, row_ok h hi, Res.ok_bind, show some (cellsOf (L.take i)).length :: L[i].dims.map some = ((cellsOf (L.take i)).length :: L[i].dims).map some from rfl, vals_map, Res.ok_bind]
  generalize L[i].dims = D at hd e ⊢
  subst hd
  match D with
  | [] => rfl
  | [_] => rfl
  | [_, _] => rfl
  | [a, b, c] => exact ⟨_, rfl, e _, rfl⟩
  | _ :: _ :: _ :: _ :: _ => rw [if_neg (by simp)]

end TPk
end Cnine
