/-
Packs of tensors: copies, conversions, arithmetic, comparison, and pushing a tensor of the pack itself.
-/
import Verif.Props.TensorPack

namespace Cnine
namespace TPk

variable {α : Type}

/-! ### C571: copies -/

theorem copy_cells {p : TP α} {nd : Nat} {L : List (Ten α)} (h : Holds p nd L) (n : Nat) (l : List (Option α)) (hl : l.length = max n 1) (hn : p.tail ≤ n) (e : l.take p.tail = cellsOf L) (cap : Nat)
    (hc : L.length ≤ cap) : Holds (⟨some l, n, p.tail, some ⟨nd + 1, rowsOf 0 L, cap⟩⟩ : TP α) nd L :=
  fill_holds h.ok ⟨cap, rfl, hc⟩ h.tail hn l hl e

/-- The copy holds the same tensors. -/
theorem C571_copy {p : TP α} {nd : Nat} {L : List (Ten α)} (h : Holds p nd L) : ∃ q, copy p = .ok q ∧ Holds q nd L := by
  obtain ⟨cap, hd, hc⟩ := h.dir
  have ht := h.tail
  rw [copy, hd, dirCopy_ok h.dims, Res.ok_bind, h.read, Res.ok_bind, put_fresh _ _ ht.ge, Res.ok_bind]
  exact ⟨_, rfl, copy_cells h _ _ (by rw [List.length_append, List.length_replicate]; omega) (Nat.le_refl _) (List.take_left' ht.symm) _ (Nat.le_refl _)⟩

theorem like_ok {p : TP α} {nd : Nat} {L : List (Ten α)} (h : Holds p nd L) (c : List (Option α)) (hc : c.length = p.tail) (cap : Nat) (hcap : L.length ≤ cap) :
    Holds (⟨some (c ++ List.replicate (max p.tail 1 - c.length) none), p.tail, p.tail, some ⟨nd + 1, rowsOf 0 L, cap⟩⟩ : TP α) nd (cut c (L.map Ten.dims)) := by
  have hs : ((L.map Ten.dims).map List.prod).sum = c.length := by
    rw [hc, h.tail]
    have := h.ok
    clear hc h hcap
    induction L with
    | nil => rfl
    | cons x L ih =>
      rw [List.map_cons, List.map_cons, List.sum_cons, ih fun y hy => this y (List.mem_cons_of_mem _ hy), ← (this x List.mem_cons_self).2]
      rw [show cellsOf (x :: L) = x.cells ++ cellsOf L from rfl, List.length_append]
  have hr : ∀ a (M : List (Ten α)) (c : List (Option α)), (∀ x ∈ M, x.Ok nd) → ((M.map Ten.dims).map List.prod).sum = c.length → rowsOf a (cut c (M.map Ten.dims)) = rowsOf a M := by
    intro a M
    induction M generalizing a with
    | nil => intro c _ _; rfl
    | cons x M ih =>
      intro c hM hs
      rw [List.map_cons, List.map_cons, List.sum_cons] at hs
      rw [List.map_cons, cut, rowsOf, rowsOf, ih _ _ (fun y hy => hM y (List.mem_cons_of_mem _ hy)) (by rw [List.length_drop]; omega)]
      dsimp only
      rw [List.length_take, Nat.min_eq_left (by omega), (hM x List.mem_cons_self).2]
  refine fill_holds (cut_ok _ _ hs fun d hd => ?_) ⟨cap, by rw [hr 0 L c h.ok hs], by rw [cut_length, List.length_map]; exact hcap⟩ (by rw [cut_cells _ _ hs, hc]) (Nat.le_refl _) _ ?_ ?_
  · obtain ⟨x, hx, rfl⟩ := List.mem_map.1 hd
    exact h.dims x hx
  · rw [List.length_append, List.length_replicate]
    omega
  · rw [cut_cells _ _ hs]
    exact List.take_left' hc

theorem reserve_new (d : Dir) (n : Nat) : reserve (⟨none, 0, 0, some d⟩ : TP α) n = .ok ⟨fresh n, n, 0, some d⟩ := by
  unfold reserve
  have h : ¬ (n ≤ (⟨none, 0, 0, some d⟩ : TP α).memsize ∧ 0 < n) := fun h => by
    have h1 : n ≤ 0 := h.1
    omega
  rw [if_neg h]

/-- `gaussian_like(x)`: tensors of the same sizes with the numbers drawn. -/
theorem C571_fillLike (f : Nat → α) {p : TP α} {nd : Nat} {L : List (Ten α)} (h : Holds p nd L) :
    ∃ q, fillLike f p = .ok q ∧ Holds q nd (cut ((List.range (cellsOf L).length).map fun i => some (f i)) (L.map Ten.dims)) := by
  obtain ⟨cap, hd, hc⟩ := h.dir
  rw [fillLike, hd, dirCopy_ok h.dims, Res.ok_bind, reserve_new, Res.ok_bind]
  dsimp only
  rw [put_fresh _ _ (by rw [List.length_map, List.length_range]), Res.ok_bind, ← h.tail]
  exact ⟨_, rfl, like_ok h _ (by rw [List.length_map, List.length_range]) _ (Nat.le_refl _)⟩

theorem cut_replicate (a : Option α) {nd : Nat} (L : List (Ten α)) (h : ∀ x ∈ L, x.Ok nd) :
    cut (List.replicate (cellsOf L).length a) (L.map Ten.dims) = L.map fun x => ⟨x.dims, List.replicate x.dims.prod a⟩ := by
  induction L with
  | nil => rfl
  | cons x L ih =>
    rw [show cellsOf (x :: L) = x.cells ++ cellsOf L from rfl, List.length_append, (h x List.mem_cons_self).2, List.map_cons, cut, List.map_cons, List.take_replicate, List.drop_replicate,
      Nat.min_eq_left (by omega), Nat.add_sub_cancel_left, ih fun y hy => h y (List.mem_cons_of_mem _ hy)]

/-- `zeros_like(x)`: zeros of the same sizes. -/
theorem C571_zerosLike [Zero α] {p : TP α} {nd : Nat} {L : List (Ten α)} (h : Holds p nd L) :
    ∃ q, zerosLike p = .ok q ∧ Holds q nd (L.map fun x => ⟨x.dims, List.replicate x.dims.prod (some 0)⟩) := by
  obtain ⟨cap, hd, hc⟩ := h.dir
  rw [zerosLike, hd, dirCopy_ok h.dims, Res.ok_bind, reserve_new, Res.ok_bind]
  dsimp only
  rw [put_fresh _ _ (by rw [List.length_replicate]), Res.ok_bind, ← cut_replicate _ L h.ok, ← h.tail]
  exact ⟨_, rfl, like_ok h _ List.length_replicate _ (Nat.le_refl _)⟩

/-- Assignment from a pack that has an array gives the same tensors. -/
theorem C571_assign_partial {p : TP α} {nd : Nat} {L : List (Ten α)} (h : Holds p nd L) (ha : p.arr ≠ none) : ∃ q, assign p = .ok q ∧ Holds q nd L := by
  obtain ⟨cap, hd, hc⟩ := h.dir
  rcases h.mem with ⟨h1, _⟩ | ⟨l, h1, h2, h3⟩
  · exact absurd h1 ha
  · have hl := h.le
    rw [assign, hd, dirCopy_ok h.dims, Res.ok_bind, readN_ok (Or.inl h1) (Or.inl (by omega)), Res.ok_bind, List.drop_zero, put_fresh _ _ (by rw [List.length_take]; omega), Res.ok_bind]
    refine ⟨_, rfl, copy_cells h _ _ ?_ (Nat.le_max_left _ _) ?_ _ (Nat.le_refl _)⟩
    · rw [List.length_append, List.length_replicate, List.length_take]
      omega
    · rw [List.take_append_of_le_length (by rw [List.length_take]; omega), List.take_take, Nat.min_eq_left (Nat.le_max_left _ _), h3]

/-- Assignment from a pack without an array, such as a new empty one, reads a cell through the null pointer; a default-constructed pack cannot even be copied. -/
theorem C571_assign_fails (nd : Nat) : assign (empty nd : TP α) = .ub ∧ copy (default : TP α) = .ub ∧ assign (default : TP α) = .ub := by
  refine ⟨?_, rfl, rfl⟩
  rw [assign]
  rfl

/-- `x=x` forgets all tensors: the pack still has as many, but none can be read. -/
theorem C571_self_fails {p : TP α} {nd : Nat} {L : List (Ten α)} (h : Holds p nd L) :
    ∃ q, assignSelf p = .ok q ∧ size q = .ok L.length ∧ ∀ i, tensor q i = .ub := by
  obtain ⟨cap, hd, hc⟩ := h.dir
  rw [assignSelf, dirOf, hd]
  dsimp only
  rw [Res.ok_bind]
  refine ⟨_, rfl, ?_, fun i => ?_⟩
  · rw [size, dirOf]
    dsimp only
    rw [Res.ok_bind, List.length_map, rows_length]
  · have key : ∀ (q : TP α) (b : Res (List (Option Nat))), rowOf q i = b → (b = .ub ∨ ∃ c, b = .ok c ∧ (c.drop 1 = [] ∨ none ∈ c.drop 1) ∧ (c[0]? = some none)) → tensor q i = .ub := by
      intro q b hb h
      rcases h with rfl | ⟨c, rfl, h1, h2⟩
      · rw [tensor, dimsOf, hb]; rfl
      · rw [tensor, dimsOf, hb, Res.ok_bind]
        rcases h1 with h1 | h1
        · rw [h1, vals, Res.ok_bind, addrOf, hb, Res.ok_bind, h2]; rfl
        · rw [vals_none h1]; rfl
    refine key _ _ rfl ?_
    rw [rowOf, dirOf]
    dsimp only
    rw [Res.ok_bind]
    dsimp only
    rw [List.getElem?_map]
    cases (rowsOf 0 L)[i]? with
    | none => exact Or.inl rfl
    | some r =>
      refine Or.inr ⟨List.replicate (nd + 1) none, if_pos List.length_replicate, ?_, ?_⟩
      · rw [List.drop_replicate, Nat.add_sub_cancel]
        cases nd with
        | zero => exact Or.inl rfl
        | succ n => exact Or.inr (List.mem_replicate.2 ⟨by omega, rfl⟩)
      · rw [List.replicate_succ]; rfl

example : (do
    let p ← push (empty 1) (Ten.of [2] [1, 2])
    let q ← zerosLike p
    let r ← copy p
    let s ← assign r
    let a ← tensor q 0
    let b ← tensor s 0
    .ok (a, b) : Res (Ten Int × Ten Int)) = .ok (Ten.of [2] [0, 0], Ten.of [2] [1, 2]) := by decide +kernel

/-! ### C573: from one tensor -/

/-- The cells of the tensor are cut into tensors of the given sizes; the sizes must fit. -/
theorem C573_ofTensor (x : Ten α) (l : List (List Nat)) (h0 : l ≠ []) :
    if (∀ d ∈ l, d.length = l.headI.length) ∧ total l = x.cells.length then ∃ p, ofTensor x l = .ok p ∧ Holds p l.headI.length (cut x.cells l)
    else ofTensor x l = .throw := by
  obtain ⟨v, l, rfl⟩ := List.exists_cons_of_ne_nil h0
  rw [ofTensor, decide_eq_true (by rw [List.length_cons]; omega), Res.assrt_true, Res.ok_bind, put_fresh _ _ (Nat.le_refl _), Res.ok_bind, show Res.get (v :: l) 0 = .ok v from rfl, Res.ok_bind]
  by_cases h : ∀ d ∈ v :: l, d.length = v.length
  · obtain ⟨cap, e, hc⟩ := pushDims_ok (v :: l) h [] (List.replicate (total (v :: l)) (none : Option α)) (by rw [List.length_replicate]; rfl) (fun x hx => absurd hx List.not_mem_nil) (cap := 0)
      (Nat.le_refl _)
    have e' : pushDims (some (Dir.empty (v.length + 1))) 0 (v :: l) = .ok (some ⟨v.length + 1, rowsOf 0 (cut (List.replicate (total (v :: l)) (none : Option α)) (v :: l)), cap⟩, total (v :: l)) := by
      rw [List.nil_append, List.length_replicate] at e
      rw [show total (v :: l) = (cellsOf ([] : List (Ten α))).length + total (v :: l) from (Nat.zero_add _).symm]
      rw [← show total (v :: l) = (cellsOf ([] : List (Ten α))).length + total (v :: l) from (Nat.zero_add _).symm] at e ⊢
      exact e
    rw [e', Res.ok_bind]
    dsimp only
    by_cases hs : total (v :: l) = x.cells.length
    · rw [if_pos ⟨h, hs⟩, decide_eq_true hs, Res.assrt_true, Res.ok_bind]
      obtain ⟨cap', e2, hc'⟩ := pushDims_ok (v :: l) h [] x.cells hs (fun x hx => absurd hx List.not_mem_nil) (cap := 0) (Nat.le_refl _)
      have e3 := e.symm.trans e2
      rw [List.nil_append, List.nil_append] at e3
      injection e3 with e3
      injection e3 with e3 _
      rw [e3]
      refine ⟨_, rfl, fill_holds (cut_ok _ _ hs h) ⟨cap', rfl, ?_⟩ (by rw [cut_cells _ _ hs]) (Nat.le_refl _) _ ?_ ?_⟩
      · rw [cut_length]; simpa using hc'
      · rw [List.length_append, List.length_replicate]; omega
      · rw [cut_cells _ _ hs]; exact List.take_left' rfl
    · rw [if_neg (fun h => hs h.2), decide_eq_false hs]
      rfl
  · rw [if_neg (fun h' => h h'.1)]
    have h' : ∃ d ∈ v :: l, d.length ≠ v.length := by
      by_contra hn
      exact h fun d hd => by_contra fun hne => hn ⟨d, hd, hne⟩
    have e := pushDims_throw (α := α) (v :: l) h' [] (fun x hx => absurd hx List.not_mem_nil) (cap := 0) (Nat.le_refl _)
    rw [show pushDims (some (Dir.empty (v.length + 1))) 0 (v :: l) = .throw from e]
    rfl

/-- Without sizes it throws. -/
theorem C573_none (x : Ten α) : ofTensor x [] = .throw := rfl

/-- From a temporary that is a view: the same. -/
theorem C573_view_partial (x : Ten α) (l : List (List Nat)) (h0 : l ≠ []) :
    if (∀ d ∈ l, d.length = l.headI.length) ∧ total l = x.cells.length then ∃ p, ofTensorMove true x l = .ok p ∧ Holds p l.headI.length (cut x.cells l)
    else ofTensorMove true x l = .throw := by
  have h := C573_ofTensor x l h0
  have e : ofTensorMove true x l = (do let p ← ofTensor x l; assign p) := if_pos rfl
  rw [e]
  split
  case isTrue hc =>
    rw [if_pos hc] at h
    obtain ⟨p, e1, hp⟩ := h
    rw [e1, Res.ok_bind]
    refine C571_assign_partial hp ?_
    intro hn
    rw [ofTensor] at e1
    obtain ⟨_, _, e1⟩ := Res.bind_eq_ok.1 e1
    rw [put_fresh _ _ (Nat.le_refl _), Res.ok_bind] at e1
    obtain ⟨_, _, e1⟩ := Res.bind_eq_ok.1 e1
    obtain ⟨⟨_, _⟩, _, e1⟩ := Res.bind_eq_ok.1 e1
    obtain ⟨_, _, e1⟩ := Res.bind_eq_ok.1 e1
    rw [← Res.ok.inj e1] at hn
    cases hn
  case isFalse hc =>
    rw [if_neg hc] at h
    rw [h]
    rfl

/-- From any other temporary the conversion always throws: the directory is made with three sizes. -/
theorem C573_move_fails (x : Ten α) (l : List (List Nat)) : ofTensorMove false x l = .throw := by
  cases l with
  | nil => rfl
  | cons d l => rfl

example : (do
    let p ← ofTensor (Ten.of [5] [1, 2, 3, 4, 5]) [[2], [3]]
    tensor p 1 : Res (Ten Int)) = .ok (Ten.of [3] [3, 4, 5]) := by decide +kernel

/-! ### C576: a tensor of the pack itself -/

/-- When there is room, a tensor of the pack can be added to the pack. -/
theorem C576_own_partial {p : TP α} {nd : Nat} {L : List (Ten α)} (h : Holds p nd L) {i : Nat} (hi : i < L.length) (hr : p.tail + L[i].cells.length ≤ p.memsize) :
    ∃ q, pushOwn p i = .ok q ∧ Holds q nd (L ++ [L[i]]) := by
  have hx := h.ok _ (List.getElem_mem hi)
  have := C569_push h L[i] hx.2
  rw [if_pos hx.1] at this
  rw [pushOwn, C570_tensor h hi, Res.ok_bind, if_neg (by omega)]
  exact this

/-- Otherwise the array is released before it is read. -/
theorem C576_own_fails {p : TP α} {nd : Nat} {L : List (Ten α)} (h : Holds p nd L) {i : Nat} (hi : i < L.length) (hr : p.memsize < p.tail + L[i].cells.length) (h0 : L[i].cells ≠ []) :
    pushOwn p i = .ub := by
  rw [pushOwn, C570_tensor h hi, Res.ok_bind, if_pos hr, if_neg h0]

example : (do
    let p ← push (empty 1) (Ten.of [2] [1, 2])
    pushOwn p 0 : Res (TP Int)) = .ub := by decide +kernel

/-! ### C577: room -/

/-- `reserve(n)` for `n > 0` keeps the tensors and gives room for `n` cells. -/
theorem C577_reserve_partial {p : TP α} {nd : Nat} {L : List (Ten α)} (h : Holds p nd L) {n : Nat} (hn : 0 < n) : ∃ q, reserve p n = .ok q ∧ Holds q nd L ∧ n ≤ q.memsize ∧ p.memsize ≤ q.memsize := by
  obtain ⟨q, e, hq, h1, _⟩ := reserve_holds h (Or.inr hn)
  refine ⟨q, e, hq, h1, ?_⟩
  by_cases hm : n ≤ p.memsize
  · rw [reserve, if_pos ⟨hm, hn⟩] at e
    rw [Res.ok.inj e]
  · omega

/-- `reserve(0)` of a pack with room for more than one cell copies all of them into an array of one cell. -/
theorem C577_reserve_fails {p : TP α} {nd : Nat} {L : List (Ten α)} (h : Holds p nd L) (hm : 1 < p.memsize) : reserve p 0 = .ub := by
  unfold reserve
  rw [if_neg (fun h => absurd h.2 (Nat.lt_irrefl _))]
  rcases h.mem with ⟨h1, h2⟩ | ⟨l, h1, h2, h3⟩
  · omega
  · rw [h1]
    dsimp only
    rw [readN_ok (Or.inl rfl) (Or.inl (by omega)), Res.ok_bind, List.drop_zero]
    have e : putN (fresh 0) 0 (l.take p.memsize) = .ub := by
      have hl : (l.take p.memsize).length = p.memsize := by rw [List.length_take]; omega
      unfold putN
      rw [if_neg (fun e => by rw [e, List.length_nil] at hl; omega), fresh_eq]
      dsimp only
      rw [if_neg (by rw [hl, List.length_replicate]; omega)]
    rw [e]
    rfl

/-- `reserve_zero(n)` keeps the tensors, and the new cells are zero. -/
theorem C577_reserveZero [Zero α] {p : TP α} {nd : Nat} {L : List (Ten α)} (h : Holds p nd L) (n : Nat) :
    ∃ q, reserveZero p n = .ok q ∧ Holds q nd L ∧ q.memsize = max n p.memsize ∧ ∀ i, p.memsize ≤ i → i < n → ∃ l, q.arr = some l ∧ l[i]? = some (some 0) := by
  unfold reserveZero
  by_cases h0 : n ≤ p.memsize
  · rw [if_pos h0]
    exact ⟨p, rfl, h, by omega, fun i h1 h2 => by omega⟩
  · rw [if_neg h0]
    have hle := h.le
    have key : ∃ a : List (Option α), a.length = max n 1 ∧ a.take p.tail = cellsOf L ∧ grow p n = Res.ok (some a) := by
      unfold grow
      rcases h.mem with ⟨h1, h2⟩ | ⟨l, h1, h2, h3⟩
      · rw [h1]
        refine ⟨_, List.length_replicate, ?_, rfl⟩
        have ht := h.tail
        rw [show p.tail = 0 by omega] at ht ⊢
        rw [List.take_zero, List.length_eq_zero_iff.1 ht.symm]
      · rw [h1]
        dsimp only
        rw [readN_ok (Or.inl rfl) (Or.inl (by omega)), Res.ok_bind, List.drop_zero, put_fresh _ _ (by rw [List.length_take]; omega)]
        refine ⟨_, ?_, ?_, rfl⟩
        · rw [List.length_append, List.length_replicate, List.length_take]; omega
        · rw [List.take_append_of_le_length (by rw [List.length_take]; omega), List.take_take, Nat.min_eq_left hle, h3]
    obtain ⟨a, h1, h2, e⟩ := key
    rw [e, Res.ok_bind, putN_ok (by rw [List.length_replicate]; omega), Res.ok_bind, List.length_replicate]
    refine ⟨_, rfl, ⟨h.ok, h.dir, h.tail, ?_, Or.inr ⟨_, rfl, ?_, ?_⟩⟩, ?_, fun i hi1 hi2 => ⟨_, rfl, ?_⟩⟩
    · show p.tail ≤ n
      omega
    · show _ = max n 1
      rw [List.length_append, List.length_append, List.length_take, List.length_replicate, List.length_drop]
      omega
    · show List.take p.tail _ = _
      rw [List.append_assoc, List.take_append_of_le_length (by rw [List.length_take]; omega), List.take_take, Nat.min_eq_left hle, h2]
    · show n = _
      omega
    · rw [List.append_assoc, List.getElem?_append_right (by rw [List.length_take]; omega), List.length_take, Nat.min_eq_left (by omega), List.getElem?_append_left (by rw [List.length_replicate]; omega),
        List.getElem?_replicate, if_pos (by omega)]

example : (do
    let p ← push (empty 1) (Ten.of [2] [1, 2])
    reserve p 0 : Res (TP Int)) = .ub := by decide +kernel

/-! ### C578: moving -/

/-- The new pack holds the tensors. -/
theorem C578_new_partial {p : TP α} {nd : Nat} {L : List (Ten α)} (h : Holds p nd L) : Holds (move p).1 nd L := h

/-- The old one still says it has as many, but none can be read, and nothing can be added. -/
theorem C578_old_fails {p : TP α} {nd : Nat} {L : List (Ten α)} (h : Holds p nd L) (h0 : L ≠ []) :
    size (move p).2 = .ok L.length ∧ (∀ i, tensor (move p).2 i = .ub) ∧ (∀ d, d.length = nd → pushRaw (move p).2 d = .ub) ∧ copy (move p).2 = .ub := by
  obtain ⟨cap, hd, hc⟩ := h.dir
  have hm : (move p).2 = ⟨none, 0, 0, some ⟨nd + 1, (rowsOf 0 L).map (fun _ => []), 0⟩⟩ := by rw [move, hd]; rfl
  have hw : Dir.whole ⟨nd + 1, (rowsOf 0 L).map (fun _ => []), 0⟩ = .ub := by
    unfold Dir.whole
    obtain ⟨x, L, rfl⟩ := List.exists_cons_of_ne_nil h0
    rw [rowsOf, List.map_cons]
    dsimp only
    rw [List.all_cons, decide_eq_false (by rw [List.length_nil]; omega)]
    rfl
  rw [hm]
  refine ⟨?_, fun i => ?_, fun d hdl => ?_, ?_⟩
  · rw [size, dirOf]
    dsimp only
    rw [Res.ok_bind, List.length_map, rows_length]
  · have e : rowOf (⟨none, 0, 0, some ⟨nd + 1, (rowsOf 0 L).map (fun _ => []), 0⟩⟩ : TP α) i = .ub := by
      rw [rowOf, dirOf]
      dsimp only
      rw [Res.ok_bind]
      dsimp only
      rw [List.getElem?_map]
      cases (rowsOf 0 L)[i]? with
      | none => rfl
      | some r => exact if_neg (by rw [List.length_nil]; omega)
    rw [tensor, dimsOf, e]
    rfl
  · have e : ∃ q, room (⟨none, 0, 0, some ⟨nd + 1, (rowsOf 0 L).map (fun _ => []), 0⟩⟩ : TP α) d.prod = .ok q ∧ q.dir = some ⟨nd + 1, (rowsOf 0 L).map (fun _ => []), 0⟩ := by
      unfold room
      split
      · rw [reserve_new]; exact ⟨_, rfl, rfl⟩
      · exact ⟨_, rfl, rfl⟩
    obtain ⟨q, e, hq⟩ := e
    rw [pushRaw, e, Res.ok_bind, hq, dirPush]
    dsimp only
    rw [decide_eq_true (by rw [hdl]), Res.assrt_true, Res.ok_bind, if_pos (by omega), hw]
    rfl
  · rw [copy, dirCopy]
    dsimp only
    rw [hw]
    rfl

example : ∃ p : TP Int, push (empty 1) (Ten.of [2] [1, 2]) = .ok p ∧ size (move p).2 = .ok 1 ∧ tensor (move p).2 0 = .ub := ⟨_, rfl, rfl, rfl⟩

end TPk
end Cnine
