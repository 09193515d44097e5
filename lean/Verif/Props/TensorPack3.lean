/-
Packs of tensors: concatenation, arithmetic and comparison.
-/
import Verif.Props.TensorPack2

namespace Cnine
namespace TPk

variable {α : Type}

/-! ### C572: concatenation -/

theorem dirs_ok {nd : Nat} {l : List (TP α)} {Ls : List (List (Ten α))} (h : List.Forall₂ (fun p L => Holds p nd L) l Ls) (acc : List Dir) :
    ∃ ds, Res.forM l acc (fun c p => do let d ← dirOf p; .ok (c ++ [d])) = .ok (acc ++ ds) ∧
      List.Forall₂ (fun d L => d.k = nd + 1 ∧ d.rows = rowsOf 0 L ∧ ∀ x ∈ L, x.Ok nd) ds Ls := by
  induction h generalizing acc with
  | nil => exact ⟨[], by rw [List.append_nil]; rfl, .nil⟩
  | @cons p L l Ls hp _ ih =>
    obtain ⟨cap, hd, _⟩ := hp.dir
    rw [Res.forM_cons]
    simp only [dirOf, hd, Res.ok_bind]
    obtain ⟨ds, e, h⟩ := ih (acc ++ [⟨nd + 1, rowsOf 0 L, cap⟩])
    simp only [dirOf] at e
    rw [e, List.append_assoc]
    exact ⟨_, rfl, .cons ⟨rfl, rfl, hp.ok⟩ h⟩

/-- The rows of several directories one after the other. -/
def rowsAll (Ls : List (List (Ten α))) : List (List (Option Nat)) := (Ls.map (rowsOf 0)).flatten

theorem cells_forM {nd : Nat} {ds : List Dir} {Ls : List (List (Ten α))} (h : List.Forall₂ (fun d L => d.k = nd + 1 ∧ d.rows = rowsOf 0 L ∧ ∀ x ∈ L, x.Ok nd) ds Ls)
    (acc : List (Option Nat)) : Res.forM ds acc (fun c d => do d.whole; .ok (c ++ d.rows.flatten)) = .ok (acc ++ (rowsAll Ls).flatten) := by
  induction h generalizing acc with
  | nil => rw [rowsAll, List.map_nil, List.flatten_nil, List.flatten_nil, List.append_nil]; rfl
  | @cons d L ds Ls hd _ ih =>
    obtain ⟨k, rows, cap⟩ := d
    obtain ⟨h1, h2, h3⟩ := hd
    dsimp only at h1 h2
    subst h1 h2
    rw [Res.forM_cons]
    dsimp only
    rw [whole_ok fun x hx => (h3 x hx).1, Res.ok_bind, Res.ok_bind, ih, List.append_assoc]
    rw [show rowsAll (L :: Ls) = rowsOf 0 L ++ rowsAll Ls from rfl, List.flatten_append]

theorem chunk_flatten {β : Type} (k : Nat) (rows : List (List β)) (h : ∀ r ∈ rows, r.length = k) (c : List β) : chunk k rows.length (rows.flatten ++ c) = rows := by
  induction rows with
  | nil => rfl
  | cons r rows ih =>
    have hr := h r List.mem_cons_self
    rw [List.length_cons, chunk, List.flatten_cons, List.append_assoc, List.take_left' hr, List.drop_left' hr, ih fun s hs => h s (List.mem_cons_of_mem _ hs)]

theorem flatten_length {β : Type} (k : Nat) (rows : List (List β)) (h : ∀ r ∈ rows, r.length = k) : rows.flatten.length = rows.length * k := by
  induction rows with
  | nil => rw [List.flatten_nil, List.length_nil, List.length_nil, Nat.zero_mul]
  | cons r rows ih =>
    rw [List.flatten_cons, List.length_append, h r List.mem_cons_self, ih fun s hs => h s (List.mem_cons_of_mem _ hs), List.length_cons, Nat.succ_mul, Nat.add_comm]

theorem shiftRows_ok (o a : Nat) (L : List (Ten α)) : shiftRows o (rowsOf a L) = .ok (rowsOf (a + o) L) := by
  induction L generalizing a with
  | nil => rfl
  | cons x L ih =>
    rw [rowsOf, shiftRows, shiftRow, Res.ok_bind, ih, Res.ok_bind, rowsOf]
    rw [show a + x.cells.length + o = a + o + x.cells.length by omega]

theorem shiftAll_ok {nd : Nat} {l : List (TP α)} {ds : List Dir} {Ls : List (List (Ten α))} (h : List.Forall₂ (fun p L => Holds p nd L) l Ls)
    (hd : List.Forall₂ (fun d L => d.k = nd + 1 ∧ d.rows = rowsOf 0 L ∧ ∀ x ∈ L, x.Ok nd) ds Ls) (o : Nat) :
    shiftAll o (List.zipWith (fun (d : Dir) (p : TP α) => (d.rows.length, p.tail)) ds l) (rowsAll Ls) = .ok (rowsOf o Ls.flatten) := by
  induction h generalizing ds o with
  | nil => cases hd; rfl
  | @cons p L l Ls hp _ ih =>
    cases hd with
    | cons h1 h2 =>
      rw [List.zipWith_cons_cons, shiftAll, h1.2.1, show rowsAll (L :: Ls) = rowsOf 0 L ++ rowsAll Ls from rfl, List.take_left' rfl, List.drop_left' rfl, shiftRows_ok, Res.ok_bind, Nat.zero_add,
        ih h2, Res.ok_bind, List.flatten_cons, rows_append, hp.tail]

theorem copies_ok {nd : Nat} {l : List (TP α)} {Ls : List (List (Ten α))} (h : List.Forall₂ (fun p L => Holds p nd L) l Ls) (T : Nat) (d : Option Dir) (a : List (Option α)) (M : List (Ten α))
    (ha : a.length = max T 1) (hM : a.take (cellsOf M).length = cellsOf M) (ht : (cellsOf M).length + (l.map TP.tail).sum ≤ T) :
    ∃ a', Res.forM l (⟨some a, T, (cellsOf M).length, d⟩ : TP α) (fun R p => do
      let c ← readN p.arr 0 p.tail
      let a ← putN R.arr R.tail c
      .ok { R with arr := a, tail := R.tail + p.tail }) = .ok ⟨some a', T, (cellsOf (M ++ Ls.flatten)).length, d⟩ ∧ a'.length = max T 1 ∧
      a'.take (cellsOf (M ++ Ls.flatten)).length = cellsOf (M ++ Ls.flatten) := by
  induction h generalizing a M with
  | nil => exact ⟨a, by rw [List.flatten_nil, List.append_nil]; rfl, ha, by rw [List.flatten_nil, List.append_nil]; exact hM⟩
  | @cons p L l Ls hp _ ih =>
    rw [List.map_cons, List.sum_cons] at ht
    have ht' := hp.tail
    rw [Res.forM_cons]
    dsimp only
    rw [hp.read, Res.ok_bind, putN_ok (by omega), Res.ok_bind, Res.ok_bind, List.flatten_cons, ← List.append_assoc]
    have e : (cellsOf M).length + p.tail = (cellsOf (M ++ L)).length := by rw [cells_append, List.length_append, ht']
    rw [e]
    refine ih _ (M ++ L) ?_ ?_ (by omega)
    · rw [List.length_append, List.length_append, List.length_take, List.length_drop]
      omega
    · rw [hM, cells_append, List.take_left' rfl]

theorem tails_sum {nd : Nat} {l : List (TP α)} {Ls : List (List (Ten α))} (h : List.Forall₂ (fun p L => Holds p nd L) l Ls) : (l.map TP.tail).sum = (cellsOf Ls.flatten).length := by
  induction h with
  | nil => rfl
  | cons hp _ ih => rw [List.map_cons, List.sum_cons, ih, List.flatten_cons, cells_append, List.length_append, hp.tail]

theorem rowsAll_length (Ls : List (List (Ten α))) : (rowsAll Ls).length = Ls.flatten.length := by
  induction Ls with
  | nil => rfl
  | cons L Ls ih => rw [show rowsAll (L :: Ls) = rowsOf 0 L ++ rowsAll Ls from rfl, List.length_append, ih, List.flatten_cons, List.length_append, rows_length]

theorem dirs_sum {nd : Nat} {ds : List Dir} {Ls : List (List (Ten α))} (h : List.Forall₂ (fun d L => d.k = nd + 1 ∧ d.rows = rowsOf 0 L ∧ ∀ x ∈ L, x.Ok nd) ds Ls) :
    (ds.map (fun d => d.rows.length)).sum = Ls.flatten.length := by
  induction h with
  | nil => rfl
  | cons h1 _ ih => rw [List.map_cons, List.sum_cons, ih, h1.2.1, rows_length, List.flatten_cons, List.length_append]

/-- Packs of tensors with the same number of sizes: all tensors in order. -/
theorem C572_cat_partial {nd : Nat} {l : List (TP α)} {Ls : List (List (Ten α))} (h : List.Forall₂ (fun p L => Holds p nd L) l Ls) (h0 : l ≠ []) :
    ∃ q, cat l = .ok q ∧ Holds q nd Ls.flatten := by
  obtain ⟨ds, e, hd⟩ := dirs_ok h []
  rw [List.nil_append] at e
  have hok : ∀ x ∈ Ls.flatten, x.Ok nd := by
    clear h0 e hd
    induction h with
    | nil => intro x hx; exact absurd hx List.not_mem_nil
    | cons hp _ ih =>
      intro x hx
      rw [List.flatten_cons] at hx
      rcases List.mem_append.1 hx with hx | hx
      · exact hp.ok x hx
      · exact ih x hx
  have hall : ∀ r ∈ rowsAll Ls, r.length = nd + 1 := by
    intro r hr
    obtain ⟨R, hR, hr⟩ := List.mem_flatten.1 hr
    obtain ⟨L, hL, rfl⟩ := List.mem_map.1 hR
    exact rows_all 0 (fun x hx => (hok x (List.mem_flatten.2 ⟨L, hL, hx⟩)).1) r hr
  have hcat : dirCat ds = .ok ⟨nd + 1, rowsAll Ls, Ls.flatten.length⟩ := by
    have hl : 0 < ds.length := by
      rw [hd.length_eq, ← h.length_eq]
      exact List.length_pos_iff.2 h0
    have hg : ∃ d, Res.get ds 0 = .ok d ∧ d.k = nd + 1 := by
      cases hd with
      | nil => exact absurd hl (Nat.lt_irrefl _)
      | cons h1 _ => exact ⟨_, rfl, h1.1⟩
    obtain ⟨d, hg, hk⟩ := hg
    have ht := dirs_sum hd
    rw [dirCat, decide_eq_true hl, Res.assrt_true, Res.ok_bind, hg, Res.ok_bind, cells_forM hd, Res.ok_bind, List.nil_append, ht, hk]
    have hlen := flatten_length _ _ hall
    rw [rowsAll_length] at hlen
    rw [if_pos hlen.le]
    have := chunk_flatten (nd + 1) (rowsAll Ls) hall (List.replicate (Ls.flatten.length * (nd + 1) - (rowsAll Ls).flatten.length) none)
    rw [rowsAll_length] at this
    rw [this]
  rw [cat, e, Res.ok_bind, hcat, Res.ok_bind]
  dsimp only
  rw [shiftAll_ok h hd, Res.ok_bind, reserve_new, Res.ok_bind, fresh_eq]
  obtain ⟨a', e1, h1, h2⟩ := copies_ok h (l.map TP.tail).sum (some ⟨nd + 1, rowsOf 0 Ls.flatten, Ls.flatten.length⟩) (List.replicate (max (l.map TP.tail).sum 1) none) [] List.length_replicate
    rfl (by show 0 + _ ≤ _; omega)
  rw [List.nil_append] at e1 h2
  exact ⟨_, e1, fill_holds hok ⟨_, rfl, Nat.le_refl _⟩ rfl (tails_sum h).ge _ h1 h2⟩

/-- No packs: it throws.  A second pack whose tensors have more sizes: the directory is written beyond its end.  With fewer: the result has a tensor that cannot be read. -/
theorem C572_cat_fails : cat ([] : List (TP Int)) = .throw ∧
    (∃ p q : TP Int, push (empty 1) (Ten.of [2] [1, 2]) = .ok p ∧ push (empty 2) (Ten.of [1, 1] [3]) = .ok q ∧ cat [p, q] = .ub ∧
      ∃ r, cat [q, p] = .ok r ∧ tensor r 0 = .ok (Ten.of [1, 1] [3]) ∧ tensor r 1 = .ub) := by
  refine ⟨rfl, _, _, rfl, rfl, by decide +kernel, ⟨some [some 3, some 1, some 2], 3, 3, some ⟨3, [[some 0, some 1, some 1], [some 1, some 2, none]], 2⟩⟩, by decide +kernel, by decide +kernel,
    by decide +kernel⟩

example : (do
    let p ← push (empty 1) (Ten.of [2] [1, 2])
    let q ← push p (Ten.of [3] [3, 4, 5])
    let r ← cat [p, q]
    tensor r 2 : Res (Ten Int)) = .ok (Ten.of [3] [3, 4, 5]) := by decide +kernel

/-! ### C574: arithmetic -/

theorem holds_full {p : TP α} {nd : Nat} {ds : List (List Nat)} {u : List α} (h : Holds p nd (full ds u)) (hu : u.length = total ds) : readN p.arr 0 p.tail = .ok (u.map some) ∧ p.tail = u.length := by
  have e : cellsOf (full ds u) = u.map some := cut_cells _ _ (by rw [List.length_map, hu]; rfl)
  exact ⟨by rw [h.read, e], by rw [h.tail, e, List.length_map]⟩

theorem full_rows (nd a : Nat) (ds : List (List Nat)) (u v : List α) (hu : u.length = total ds) (hv : v.length = total ds) : rowsOf a (full ds u) = rowsOf a (full ds v) := by
  induction ds generalizing a u v with
  | nil => rfl
  | cons d ds ih =>
    rw [total, List.map_cons, List.sum_cons] at hu hv
    have e : ∀ w : List α, full (d :: ds) w = ⟨d, (w.map some).take d.prod⟩ :: full ds (w.drop d.prod) := fun w => by rw [full, cut, full, List.map_drop]
    rw [e, e, rowsOf, rowsOf, ih (u := u.drop d.prod) (v := v.drop d.prod) _ (by rw [List.length_drop, total]; omega) (by rw [List.length_drop, total]; omega)]
    dsimp only
    rw [List.length_take, List.length_take, List.length_map, List.length_map, Nat.min_eq_left (by omega), Nat.min_eq_left (by omega)]

/-- New numbers in all cells of a pack. -/
theorem put_full {p : TP α} {nd : Nat} {ds : List (List Nat)} {u w : List α} (h : Holds p nd (full ds u)) (hu : u.length = total ds) (hw : w.length = total ds) :
    ∃ a, putN p.arr 0 (w.map some) = .ok a ∧ Holds { p with arr := a } nd (full ds w) := by
  obtain ⟨_, ht⟩ := holds_full h hu
  have hs : (ds.map List.prod).sum = (w.map some).length := by rw [List.length_map, hw]; rfl
  have hc : cellsOf (full ds w) = w.map some := cut_cells _ _ hs
  obtain ⟨cap, hd, hcap⟩ := h.dir
  have hds : ∀ (ds : List (List Nat)) (u : List α), (∀ x ∈ full ds u, x.dims.length = nd) → ∀ d ∈ ds, d.length = nd := by
    intro ds
    induction ds with
    | nil => intro u _ d hd; exact absurd hd List.not_mem_nil
    | cons d ds ih =>
      intro u hu d' hd'
      have e : full (d :: ds) u = ⟨d, (u.map some).take d.prod⟩ :: full ds (u.drop d.prod) := by rw [full, cut, full, List.map_drop]
      rw [e] at hu
      rcases List.mem_cons.1 hd' with rfl | hd'
      · exact hu _ List.mem_cons_self
      · exact ih _ (fun x hx => hu x (List.mem_cons_of_mem _ hx)) d' hd'
  have hok : ∀ x ∈ full ds w, x.Ok nd := cut_ok _ _ hs (hds ds u h.dims)
  have hdir : ∃ cap, p.dir = some ⟨nd + 1, rowsOf 0 (full ds w), cap⟩ ∧ (full ds w).length ≤ cap :=
    ⟨cap, by rw [hd, full_rows nd 0 ds u w hu hw], by rw [full, cut_length] at hcap ⊢; exact hcap⟩
  have ht' : p.tail = (cellsOf (full ds w)).length := by rw [hc, List.length_map, hw, ht, hu]
  have hle := h.le
  rcases h.mem with ⟨h1, h2⟩ | ⟨l, h1, h2, h3⟩
  · have h0 : w.map some = [] := List.length_eq_zero_iff.1 (by rw [← hc, ← ht']; omega)
    exact ⟨p.arr, by rw [h0]; exact if_pos rfl, hok, hdir, ht', hle, Or.inl ⟨h1, h2⟩⟩
  · have hlen : (w.map some).length = p.tail := by rw [← hc, ← ht']
    rw [h1, putN_ok (by omega)]
    refine ⟨_, rfl, hok, hdir, ht', hle, Or.inr ⟨_, rfl, ?_, ?_⟩⟩
    · show _ = max p.memsize 1
      rw [List.length_append, List.length_append, List.length_take, List.length_drop]
      omega
    · show List.take p.tail _ = _
      rw [List.take_zero, List.nil_append, List.take_left' hlen, hc]

theorem addCells_ok (f : α → α → α) {p x : TP α} {nd nd' : Nat} {ds es : List (List Nat)} {u v : List α} (hp : Holds p nd (full ds u)) (hu : u.length = total ds) (hx : Holds x nd' (full es v))
    (hv : v.length = total es) (o : Nat) (ho : o + u.length ≤ v.length) :
    ∃ a, addCells f p.arr x.arr o p.tail = .ok a ∧ Holds { p with arr := a } nd (full ds (List.zipWith f u (v.drop o))) := by
  obtain ⟨e1, ht⟩ := holds_full hp hu
  obtain ⟨_, ht2⟩ := holds_full hx hv
  have e2 : cellsOf (full es v) = v.map some := cut_cells _ _ (by rw [List.length_map, hv]; rfl)
  have e3 : readN x.arr o p.tail = .ok (((v.drop o).take u.length).map some) := by
    rw [hx.readAt (by omega), e2, ht, List.map_take, List.map_drop]
  have e4 : List.zipWith f u ((v.drop o).take u.length) = List.zipWith f u (v.drop o) := by
    rw [List.zipWith_eq_zipWith_take_min, List.zipWith_eq_zipWith_take_min (l₂ := v.drop o)]
    rw [List.take_take, List.length_take, List.length_drop]
    congr 2 <;> omega
  rw [addCells, e1, Res.ok_bind, vals_map, Res.ok_bind, e3, Res.ok_bind, vals_map, Res.ok_bind, e4]
  exact put_full hp hu (by rw [List.length_zipWith, List.length_drop]; omega)

/-- `add(x)`: the numbers one after the other are added, whatever the sizes of the tensors; only their total number is checked. -/
theorem C574_add [Add α] {p x : TP α} {nd nd' : Nat} {ds es : List (List Nat)} {u v : List α} (hp : Holds p nd (full ds u)) (hu : u.length = total ds) (hx : Holds x nd' (full es v))
    (hv : v.length = total es) : if v.length = u.length then ∃ q, add p x = .ok q ∧ Holds q nd (full ds (List.zipWith (· + ·) u v)) else add p x = .throw := by
  obtain ⟨_, ht⟩ := holds_full hp hu
  obtain ⟨_, ht2⟩ := holds_full hx hv
  rw [add, ht, ht2]
  split
  case isTrue h =>
    obtain ⟨a, e, h1⟩ := addCells_ok (· + ·) hp hu hx hv 0 (by omega)
    rw [ht] at e h1
    rw [decide_eq_true h, Res.assrt_true, Res.ok_bind, e, Res.ok_bind]
    exact ⟨_, rfl, h1⟩
  case isFalse h => rw [decide_eq_false h]; rfl

/-- `add(x,c)`. -/
theorem C574_addC [Add α] [Mul α] (c : α) {p x : TP α} {nd nd' : Nat} {ds es : List (List Nat)} {u v : List α} (hp : Holds p nd (full ds u)) (hu : u.length = total ds) (hx : Holds x nd' (full es v))
    (hv : v.length = total es) : if v.length = u.length then ∃ q, addC p x c = .ok q ∧ Holds q nd (full ds (List.zipWith (fun a b => a + c * b) u v)) else addC p x c = .throw := by
  obtain ⟨_, ht⟩ := holds_full hp hu
  obtain ⟨_, ht2⟩ := holds_full hx hv
  rw [addC, ht, ht2]
  split
  case isTrue h =>
    obtain ⟨a, e, h1⟩ := addCells_ok (fun a b => a + c * b) hp hu hx hv 0 (by omega)
    rw [ht] at e h1
    rw [decide_eq_true h, Res.assrt_true, Res.ok_bind, e, Res.ok_bind]
    exact ⟨_, rfl, h1⟩
  case isFalse h => rw [decide_eq_false h]; rfl

/-- `add_subpack(x,offset)`: the tensors of `x` from `offset` on are added; they must be at least as many cells. -/
theorem C574_subpack [Add α] {p x : TP α} {nd nd' : Nat} {ds es : List (List Nat)} {u v : List α} (hp : Holds p nd (full ds u)) (hu : u.length = total ds) (hx : Holds x nd' (full es v))
    (hv : v.length = total es) (k : Nat) :
    if k = es.length then addSubpack p x k = .ok p
    else if k < es.length ∧ total (es.take k) + u.length ≤ v.length then ∃ q, addSubpack p x k = .ok q ∧ Holds q nd (full ds (List.zipWith (· + ·) u (v.drop (total (es.take k)))))
    else addSubpack p x k = .throw := by
  obtain ⟨_, ht⟩ := holds_full hp hu
  obtain ⟨_, ht2⟩ := holds_full hx hv
  have hl : (full es v).length = es.length := cut_length _ _
  rw [addSubpack, C570_size hx, Res.ok_bind, hl]
  by_cases h1 : k = es.length
  · rw [if_pos h1, decide_eq_true h1.le, Res.assrt_true, Res.ok_bind, if_pos h1]
  · rw [if_neg h1]
    by_cases h2 : k < es.length
    · rw [decide_eq_true h2.le, Res.assrt_true, Res.ok_bind, if_neg h1, addr_ok hx (by rw [hl]; exact h2), Res.ok_bind]
      have ha : (cellsOf ((full es v).take k)).length = total (es.take k) := by
        have key : ∀ (es : List (List Nat)) (v : List α) (k : Nat), v.length = total es → (cellsOf ((full es v).take k)).length = total (es.take k) := by
          intro es
          induction es with
          | nil => intro v k _; rw [List.take_nil, full, cut, List.take_nil]; rfl
          | cons d es ih =>
            intro v k hv
            cases k with
            | zero => rfl
            | succ k =>
              rw [total, List.map_cons, List.sum_cons] at hv
              have e : full (d :: es) v = ⟨d, (v.map some).take d.prod⟩ :: full es (v.drop d.prod) := by rw [full, cut, full, List.map_drop]
              rw [e, List.take_succ_cons, List.take_succ_cons, total, List.map_cons, List.sum_cons]
              rw [← total, ← ih (v.drop d.prod) k (by rw [List.length_drop, total]; omega)]
              rw [show ∀ (y : Ten α) M, cellsOf (y :: M) = y.cells ++ cellsOf M from fun _ _ => rfl, List.length_append, List.length_take, List.length_map, Nat.min_eq_left (by omega)]
        exact key es v k hv
      rw [ha, ht, ht2]
      by_cases h3 : total (es.take k) + u.length ≤ v.length
      · rw [if_pos ⟨h2, h3⟩, decide_eq_true h3, Res.assrt_true, Res.ok_bind]
        obtain ⟨a, e, h4⟩ := addCells_ok (· + ·) hp hu hx hv _ h3
        rw [ht] at e h4
        rw [e, Res.ok_bind]
        exact ⟨_, rfl, h4⟩
      · rw [if_neg (fun h => h3 h.2), decide_eq_false h3]
        rfl
    · rw [if_neg (fun h => h2 h.1), decide_eq_false (by omega)]
      rfl

/-- `inp(y)`: the sum of the products. -/
theorem C574_inp [NonUnitalNonAssocSemiring α] {p x : TP α} {nd nd' : Nat} {ds es : List (List Nat)} {u v : List α} (hp : Holds p nd (full ds u)) (hu : u.length = total ds)
    (hx : Holds x nd' (full es v)) (hv : v.length = total es) : inp p x = if u.length = v.length then .ok (List.zipWith (· * ·) u v).sum else .throw := by
  obtain ⟨e1, ht⟩ := holds_full hp hu
  obtain ⟨e2, ht2⟩ := holds_full hx hv
  rw [inp]
  by_cases h : u.length = v.length
  · rw [if_pos h, decide_eq_true (by omega), Res.assrt_true, Res.ok_bind, e1, Res.ok_bind, vals_map, Res.ok_bind, show p.tail = x.tail by omega, e2, Res.ok_bind, vals_map, Res.ok_bind, List.sum_eq_foldl]
  · rw [if_neg h, decide_eq_false (by omega)]; rfl

/-- `diff2(y)`: the sum of the squares of the differences. -/
theorem C574_diff2 [NonUnitalNonAssocRing α] {p x : TP α} {nd nd' : Nat} {ds es : List (List Nat)} {u v : List α} (hp : Holds p nd (full ds u)) (hu : u.length = total ds)
    (hx : Holds x nd' (full es v)) (hv : v.length = total es) : diff2 p x = if u.length = v.length then .ok (List.zipWith (fun a b => (a - b) * (a - b)) u v).sum else .throw := by
  obtain ⟨e1, ht⟩ := holds_full hp hu
  obtain ⟨e2, ht2⟩ := holds_full hx hv
  rw [diff2]
  by_cases h : u.length = v.length
  · rw [if_pos h, decide_eq_true (by omega), Res.assrt_true, Res.ok_bind, e1, Res.ok_bind, vals_map, Res.ok_bind, show p.tail = x.tail by omega, e2, Res.ok_bind, vals_map, Res.ok_bind, List.sum_eq_foldl]
  · rw [if_neg h, decide_eq_false (by omega)]; rfl

example : (do
    let p ← ofTensor (Ten.of [5] [1, 2, 3, 4, 5]) [[2], [3]]
    let q ← ofTensor (Ten.of [5] [10, 20, 30, 40, 50]) [[3], [2]]
    let r ← add p q
    let z ← zerosN 1 [2]
    let s ← addSubpack z q 1
    let a ← tensor r 1
    let b ← tensor s 0
    let c ← inp p q
    .ok (a, b, c) : Res (Ten Int × Ten Int × Int)) = .ok (Ten.of [3] [33, 44, 55], Ten.of [2] [40, 50], 550) := by decide +kernel

/-! ### C575: comparison -/

theorem eqCells_ok {β : Type} [DecidableEq β] (u v : List β) (h : u.length = v.length) : eqCells (u.map some) (v.map some) = .ok (decide (u = v)) := by
  induction u generalizing v with
  | nil =>
    cases v with
    | nil => rfl
    | cons b v => cases h
  | cons a u ih =>
    cases v with
    | nil => cases h
    | cons b v =>
      rw [List.map_cons, List.map_cons, eqCells]
      by_cases e : a = b
      · rw [if_pos e, ih v (Nat.succ.inj h)]
        congr 1
        rw [e]
        simp
      · rw [if_neg e, decide_eq_false (fun h => e (List.cons.inj h).1)]

theorem eqCells_none {β : Type} [DecidableEq β] (u : List (Option β)) (h : none ∈ u) : eqCells u u = .ub := by
  induction u with
  | nil => exact absurd h List.not_mem_nil
  | cons a u ih =>
    cases a with
    | none => rw [eqCells] <;> simp
    | some a =>
      rw [eqCells, if_pos rfl]
      exact ih ((List.mem_cons.1 h).resolve_left (by simp))

/-- The numbers in the rows. -/
def rowNums (a : Nat) : List (Ten α) → List Nat
  | [] => []
  | x :: L => (a :: x.dims) ++ rowNums (a + x.cells.length) L

theorem rows_nums (a : Nat) (L : List (Ten α)) : (rowsOf a L).flatten = (rowNums a L).map some := by
  induction L generalizing a with
  | nil => rfl
  | cons x L ih => rw [rowsOf, List.flatten_cons, ih, rowNums, List.map_append]; rfl

theorem nums_length {nd a : Nat} {L : List (Ten α)} (h : ∀ x ∈ L, x.dims.length = nd) : (rowNums a L).length = L.length * (nd + 1) := by
  have e := flatten_length _ _ (rows_all a h)
  rw [rows_nums, List.length_map, rows_length] at e
  exact e

theorem nums_inj {nd a : Nat} {L M : List (Ten α)} (hL : ∀ x ∈ L, x.Ok nd) (hM : ∀ x ∈ M, x.Ok nd) (h : L.length = M.length) (e : rowNums a L = rowNums a M) (ec : cellsOf L = cellsOf M) : L = M := by
  induction L generalizing a M with
  | nil => exact (List.length_eq_zero_iff.1 h.symm).symm
  | cons x L ih =>
    cases M with
    | nil => cases h
    | cons y M =>
      have hx := hL x List.mem_cons_self
      have hy := hM y List.mem_cons_self
      obtain ⟨e1, e2⟩ := List.append_inj e (by rw [List.length_cons, List.length_cons, hx.1, hy.1])
      have e3 : x.dims = y.dims := (List.cons.inj e1).2
      have e4 : x.cells.length = y.cells.length := by rw [hx.2, hy.2, e3]
      obtain ⟨e5, e6⟩ := List.append_inj (show x.cells ++ cellsOf L = y.cells ++ cellsOf M from ec) e4
      rw [e4] at e2
      rw [ih (fun z hz => hL z (List.mem_cons_of_mem _ hz)) (fun z hz => hM z (List.mem_cons_of_mem _ hz)) (Nat.succ.inj h) e2 e6]
      obtain ⟨d, c⟩ := x
      obtain ⟨d', c'⟩ := y
      dsimp only at e3 e5
      rw [e3, e5]

/-- Two packs without spare rows in the directory, all of whose cells have been written, such as copies: equal when they hold the same tensors. -/
theorem C575_equal_partial [DecidableEq α] {p q : TP α} {nd nd' : Nat} {L M : List (Ten α)} (hp : Holds p nd L) (hq : Holds q nd' M) (hpd : p.dir = some ⟨nd + 1, rowsOf 0 L, L.length⟩)
    (hqd : q.dir = some ⟨nd' + 1, rowsOf 0 M, M.length⟩) {u v : List α} (hu : cellsOf L = u.map some) (hv : cellsOf M = v.map some) : equal p q = .ok (decide (nd = nd' ∧ L = M)) := by
  rw [equal, dirOf, dirOf, hpd, hqd]
  dsimp only
  rw [Res.ok_bind, Res.ok_bind, dirEq]
  dsimp only
  rw [rows_length, rows_length]
  by_cases h1 : L.length = M.length ∧ nd = nd'
  · obtain ⟨h1, rfl⟩ := h1
    rw [if_neg (not_not.2 ⟨h1, rfl⟩), if_neg (by rw [h1]; simp), whole_ok hp.dims, Res.ok_bind, whole_ok hq.dims, Res.ok_bind, Nat.sub_self, Nat.sub_self, Nat.zero_mul, List.replicate_zero,
      List.append_nil, List.append_nil, rows_nums, rows_nums, eqCells_ok _ _ (by rw [nums_length hp.dims, nums_length hq.dims, h1]), Res.ok_bind]
    by_cases h2 : rowNums 0 L = rowNums 0 M
    · rw [decide_eq_true h2, if_neg (by simp)]
      by_cases h3 : p.tail = q.tail
      · rw [if_neg (not_not.2 h3), hp.read, Res.ok_bind, h3, hq.read, Res.ok_bind, hu, hv, eqCells_ok]
        · congr 1
          refine decide_eq_decide.2 ⟨fun e => ⟨rfl, nums_inj hp.ok hq.ok h1 h2 (by rw [hu, hv, e])⟩, fun e => ?_⟩
          have e' : u.map some = v.map some := by rw [← hu, ← hv, e.2]
          exact List.map_injective_iff.2 (fun _ _ h => Option.some.inj h) e'
        · have := hp.tail
          have := hq.tail
          rw [hu, List.length_map] at *
          rw [hv, List.length_map] at *
          omega
      · rw [if_pos h3, decide_eq_false]
        rintro ⟨_, rfl⟩
        exact h3 (hp.tail.trans hq.tail.symm)
    · rw [decide_eq_false h2, if_pos rfl, decide_eq_false]
      rintro ⟨_, rfl⟩
      exact h2 rfl
  · rw [if_pos (fun h => h1 ⟨h.1, Nat.add_right_cancel h.2⟩), Res.ok_bind, if_pos rfl, decide_eq_false]
    rintro ⟨rfl, rfl⟩
    exact h1 ⟨rfl, rfl⟩

/-- Copies are such packs. -/
theorem C575_copies {p : TP α} {nd : Nat} {L : List (Ten α)} (h : Holds p nd L) : ∃ q, copy p = .ok q ∧ Holds q nd L ∧ q.dir = some ⟨nd + 1, rowsOf 0 L, L.length⟩ := by
  obtain ⟨q, e, hq⟩ := C571_copy h
  refine ⟨q, e, hq, ?_⟩
  obtain ⟨cap, hd, hc⟩ := h.dir
  rw [copy, hd, dirCopy_ok h.dims, Res.ok_bind, h.read, Res.ok_bind, put_fresh _ _ h.tail.ge, Res.ok_bind] at e
  rw [← Res.ok.inj e]

/-- After `push_back` the directory has spare rows. -/
theorem push_spare {p q : TP α} {nd : Nat} {L : List (Ten α)} (h : Holds p nd L) {x : Ten α} (hx : x.Ok nd) (e : push p x = .ok q) :
    ∃ cap, q.dir = some ⟨nd + 1, rowsOf 0 (L ++ [x]), cap⟩ ∧ (L ++ [x]).length < cap := by
  obtain ⟨r, e1, hr, h1, h2, h3⟩ := room_holds h x.cells.length
  rw [push, e1, Res.ok_bind] at e
  obtain ⟨a, _, e⟩ := Res.bind_eq_ok.1 e
  obtain ⟨d, e2, e⟩ := Res.bind_eq_ok.1 e
  obtain ⟨cap, hd, hc⟩ := hr.dir
  obtain ⟨cap', e3, hc'⟩ := dirPush_ok hr.dims x hx.1 hc hr.tail
  rw [hd, e3] at e2
  rw [← Res.ok.inj e, ← Res.ok.inj e2]
  exact ⟨cap', rfl, hc'⟩

/-- After `push_back` a pack is not equal to its own copy, which holds the same tensors; and comparing it with itself reads numbers never written. -/
theorem C575_equal_fails [DecidableEq α] {p q : TP α} {nd : Nat} {L : List (Ten α)} (h : Holds p nd L) {x : Ten α} (hx : x.Ok nd) (e : push p x = .ok q) :
    (∃ c, copy q = .ok c ∧ Holds c nd (L ++ [x]) ∧ equal q c = .ok false) ∧ equal q q = .ub := by
  have hq : Holds q nd (L ++ [x]) := by
    have := C569_push h x hx.2
    rw [if_pos hx.1] at this
    obtain ⟨q', e', hq⟩ := this
    rw [e] at e'
    rw [Res.ok.inj e']
    exact hq
  obtain ⟨cap, hd, hc⟩ := push_spare h hx e
  obtain ⟨c, ec, hcH, hcd⟩ := C575_copies hq
  refine ⟨⟨c, ec, hcH, ?_⟩, ?_⟩
  · rw [equal, dirOf, dirOf, hd, hcd]
    dsimp only
    rw [Res.ok_bind, Res.ok_bind, dirEq]
    dsimp only
    rw [if_neg (not_not.2 ⟨rfl, rfl⟩), if_pos (fun h => by
      have := Nat.eq_of_mul_eq_mul_right (Nat.succ_pos nd) h
      omega), Res.ok_bind, if_pos rfl]
  · rw [equal, dirOf, hd]
    dsimp only
    rw [Res.ok_bind, Res.ok_bind, dirEq]
    dsimp only
    rw [if_neg (not_not.2 ⟨rfl, rfl⟩), if_neg (not_not.2 rfl), whole_ok hq.dims, Res.ok_bind, Res.ok_bind, eqCells_none]
    · rfl
    · rw [rows_length]
      exact List.mem_append_right _ (List.mem_replicate.2 ⟨Nat.mul_ne_zero (by omega) (by omega), rfl⟩)

example : (do
    let p ← push (empty 1) (Ten.of [2] [1, 2])
    let q ← copy p
    let r ← copy q
    let a ← equal p q
    let b ← equal q r
    .ok (a, b) : Res (Bool × Bool)) = .ok (false, true) := by decide +kernel

end TPk
end Cnine
