import Verif.Lemmas.Sparse
import Mathlib.Data.List.Perm.Subperm

/-! # Lemmas about the CSR matrices -/

namespace Cnine

open PoolSpec

variable {α : Type _}

theorem Dir.resize0_ok {d : Dir} {k n : Nat} (h : d.Fits k) (hk : k ≤ n) : ∃ d', d.resize0 n = .ok d' ∧ d'.Fits n := by
  unfold Dir.resize0
  rw [h.1, Pool.assrt_pos (by omega), Res.ok_bind]
  have ht : Int.tdiv d.memsize 2 = d.memsize / 2 := Int.tdiv_eq_ediv_of_nonneg (by have := h.2.1; omega)
  by_cases c : (n : Int) > d.capacity0
  · rw [if_pos c]
    have : k < n := by
      unfold Dir.capacity0 at c
      rw [ht] at c
      have := h.2.1
      omega
    obtain ⟨d1, e1, e2, e3, e4, e5, e6⟩ := Dir.reserve0_ok n h this
    rw [e1, Res.ok_bind]
    exact ⟨_, rfl, rfl, e5, e4⟩
  · rw [if_neg c, Res.ok_bind]
    refine ⟨_, rfl, rfl, ?_, h.2.2⟩
    unfold Dir.capacity0 at c
    rw [ht] at c
    dsimp only
    omega

namespace Pool

theorem part_ofSize (n : Nat) : (Pool.ofSize n : Pool α).Part n [] where
  dir := Dir.fits_raw n
  le := by simp
  tail := by simp [Pool.ofSize, off]
  mem := by simp [Pool.ofSize]
  arr := by simp [Pool.ofSize]
  fit := by simp
  dir0 := by simp
  dir1 := by simp
  cells := by simp

/-- Without filled rows only sizes matter. -/
theorem part_nil {p : Pool α} {n : Nat} (h1 : p.dir.Fits n) (h2 : p.tail = 0) (h3 : 0 ≤ p.memsize)
    (h4 : p.memsize ≤ p.arr.length) : p.Part n [] where
  dir := h1
  le := by simp
  tail := by simp [off, h2]
  mem := by omega
  arr := h4
  fit := by simp
  dir0 := by simp
  dir1 := by simp
  cells := by simp

end Pool

namespace CSR

/-- The row of the pool for a list of entries. -/
def crow (v : List (Int × α)) : Row (CCell α) := Row.full (v.flatMap pair)

theorem length_pairs (v : List (Int × α)) : (v.flatMap pair).length = 2 * v.length := by
  induction v with
  | nil => rfl
  | cons e v ih => rw [List.flatMap_cons, List.length_append, ih, List.length_cons]; simp [pair]; omega

theorem crow_room (v : List (Int × α)) : (crow v).room = 2 * v.length := length_pairs v

theorem crow_len (v : List (Int × α)) : (crow v).cells.length = 2 * v.length := by
  unfold crow Row.full; rw [List.length_map, length_pairs]

theorem pairs_get {v : List (Int × α)} {k : Nat} {e : Int × α} (h : v[k]? = some e) :
    (v.flatMap pair)[2 * k]? = some (.ix e.1) ∧ (v.flatMap pair)[2 * k + 1]? = some (.val e.2) := by
  induction v generalizing k with
  | nil => simp at h
  | cons a v ih =>
    rw [List.flatMap_cons]
    cases k with
    | zero =>
      simp at h
      subst h
      simp [pair]
    | succ k =>
      simp at h
      obtain ⟨h1, h2⟩ := ih h
      have e1 : 2 * (k + 1) = (2 * k) + 2 := by omega
      have e2 : 2 * (k + 1) + 1 = (2 * k + 1) + 2 := by omega
      rw [e2, e1]
      simp only [pair, List.cons_append, List.nil_append, List.getElem?_cons_succ]
      exact ⟨h1, h2⟩

/-- One round of the loops that build CSR matrices. -/
theorem part_row {p : Pool (CCell α)} {n : Nat} {rows : List (Row (CCell α))} (h : p.Part n rows) (hn : rows.length < n)
    (v : List (Int × α)) (hm : p.tail + (2 * v.length : Nat) ≤ p.memsize) :
    ∃ d1 d a, p.dir.set rows.length 0 p.tail = .ok d1 ∧ d1.set rows.length 1 (2 * v.length) = .ok d ∧
      p.arr.wrList p.tail (v.flatMap pair) = .ok a ∧
      Pool.Part { p with dir := d, arr := a, tail := p.tail + 2 * v.length } n (rows ++ [crow v]) := by
  obtain ⟨d, e1, e2, e3, e4, e5⟩ := Dir.set2_ok p.tail (2 * v.length) h.dir hn
  obtain ⟨d1, g1, g2⟩ := Res.bind_eq_ok.mp e1
  have ht := h.tail
  have hmem := h.mem
  have harr := h.arr
  obtain ⟨b, k1, k2, k3⟩ := Arr.wrList_ok (v.flatMap pair) p.arr (off rows rows.length) (by
    rw [length_pairs]; omega)
  rw [← ht] at k1
  refine ⟨d1, d, b, g1, g2, k1, ?_⟩
  refine Pool.part_snoc h (crow v) e2 (by omega) (by simp only [crow_room]; omega) ?_ ?_ (by rw [crow_room, crow_len]; exact Nat.le_refl _) e3
    (by rw [e4, crow_len]; congr 2) ?_ ?_ ?_
  · dsimp only; omega
  · dsimp only; rw [k2]; exact harr
  · intro k hk; exact e5 k (by omega) (by omega)
  · intro k hk
    dsimp only
    rw [k3, if_neg (by omega)]
  · intro j x hx
    exact Pool.wrList_new k3 hx

/-- The entries of row `i`. -/
def vrow (x : SpMat α) (i : Nat) : SpVec α := (OMap.find? (i : Int) x.lists).getD []

theorem rowsLoop_ok (x : SpMat α) : ∀ (k : Nat) (p : Pool (CCell α)) (rows : List (Row (CCell α))) (n : Nat),
    p.Part n rows → rows.length + k = n →
    p.tail + (((List.range' rows.length k).map fun i => 2 * (vrow x i).length).sum : Nat) ≤ p.memsize →
    ∃ p', rowsLoop x rows.length k p = .ok p' ∧ p'.Holds (rows ++ (List.range' rows.length k).map fun i => crow (vrow x i)) := by
  intro k
  induction k with
  | zero =>
    intro p rows n h hn _
    refine ⟨p, rfl, ?_⟩
    simp only [List.range'_zero, List.map_nil, List.append_nil, Nat.add_zero] at hn ⊢
    unfold Pool.Holds; rw [hn]; exact h
  | succ k ih =>
    intro p rows n h hn hm
    rw [List.range'_succ, List.map_cons, List.sum_cons] at hm
    obtain ⟨d1, d, a, g1, g2, g3, g4⟩ := part_row h (by omega) (vrow x rows.length) (by omega)
    obtain ⟨p', f1, f2⟩ := ih _ _ n g4 (by simp; omega) (by
      rw [List.length_append, List.length_singleton]; dsimp only; omega)
    refine ⟨p', ?_, ?_⟩
    · unfold rowsLoop
      rw [g1, Res.ok_bind]
      dsimp only
      have : ((OMap.find? (rows.length : Int) x.lists).getD []) = vrow x rows.length := rfl
      rw [this, g2, Res.ok_bind, g3, Res.ok_bind]
      rw [List.length_append, List.length_singleton] at f1
      exact f1
    · rw [List.length_append, List.length_singleton, List.append_assoc] at f2
      rw [List.range'_succ, List.map_cons]
      exact f2

theorem denseLoop_ok [Zero α] [DecidableEq α] (m : Nat) (x : Nat → Nat → α) :
    ∀ (k : Nat) (p : Pool (CCell α)) (rows : List (Row (CCell α))) (n : Nat),
    p.Part n rows → rows.length + k = n →
    p.tail + (((List.range' rows.length k).map fun i => 2 * (denseRow m x i).length).sum : Nat) ≤ p.memsize →
    ∃ p', denseLoop m x rows.length k p = .ok p' ∧
      p'.Holds (rows ++ (List.range' rows.length k).map fun i => crow (denseRow m x i)) := by
  intro k
  induction k with
  | zero =>
    intro p rows n h hn _
    refine ⟨p, rfl, ?_⟩
    simp only [List.range'_zero, List.map_nil, List.append_nil, Nat.add_zero] at hn ⊢
    unfold Pool.Holds; rw [hn]; exact h
  | succ k ih =>
    intro p rows n h hn hm
    rw [List.range'_succ, List.map_cons, List.sum_cons] at hm
    obtain ⟨d1, d, a, g1, g2, g3, g4⟩ := part_row h (by omega) (denseRow m x rows.length) (by omega)
    obtain ⟨p', f1, f2⟩ := ih _ _ n g4 (by simp; omega) (by
      rw [List.length_append, List.length_singleton]; dsimp only; omega)
    refine ⟨p', ?_, ?_⟩
    · unfold denseLoop
      rw [g1, Res.ok_bind]
      dsimp only
      rw [g3, Res.ok_bind, g2, Res.ok_bind]
      rw [List.length_append, List.length_singleton] at f1
      exact f1
    · rw [List.length_append, List.length_singleton, List.append_assoc] at f2
      rw [List.range'_succ, List.map_cons]
      exact f2

/-- The matrix represents rows of entries. -/
def Has (c : CSR α) (vs : List (List (Int × α))) : Prop := c.pool.Holds (vs.map crow)

theorem readPairs_ok (P : Pun α) (arr : Arr (CCell α)) : ∀ (v : List (Int × α)) (a : Nat),
    (∀ j c, (v.flatMap pair)[j]? = some c → arr[a + j]? = some (some c)) → readPairs P arr a v.length = .ok v
  | [], a, _ => rfl
  | e :: v, a, h => by
    have h0 := h 0 (.ix e.1) (by simp [pair])
    have h1 := h 1 (.val e.2) (by simp [pair])
    have ih := readPairs_ok P arr v (a + 2) (fun j c hc => by
      have := h (j + 2) c (by
        rw [List.flatMap_cons]
        simpa [pair] using hc)
      rw [← this]; congr 1; omega)
    rw [List.length_cons]
    unfold readPairs
    rw [Arr.rd_ok' (k := a) rfl h0, Res.ok_bind, Arr.rd_ok' (k := a + 1) (by omega) h1, Res.ok_bind]
    have e2 : (a : Int) + 2 = ((a + 2 : Nat) : Int) := by omega
    rw [e2, ih]; rfl

theorem Has.row {c : CSR α} {vs : List (List (Int × α))} (h : c.Has vs) {i : Nat} {v : List (Int × α)} (hv : vs[i]? = some v) :
    ∃ o : Nat, c.pool.offset i = .ok o ∧ c.sizeOf i = .ok v.length ∧ c.pool.dir.at' i 0 = .ok (o : Int) ∧
      c.pool.dir.at' i 1 = .ok (2 * v.length : Int) ∧ (i : Int) < c.pool.size ∧
      ∀ j x, (v.flatMap pair)[j]? = some x → c.pool.arr[o + j]? = some (some x) := by
  have hr : (vs.map crow)[i]? = some (crow v) := by rw [List.getElem?_map, hv]; rfl
  have hlt := Pool.lt_of_get hr
  have hsz : c.pool.size = ((vs.map crow).length : Int) := h.size
  have e0 := h.off_at hr
  have e1 := h.len_at hr
  rw [crow_len] at e1
  refine ⟨off (vs.map crow) i, ?_, ?_, e0, e1, by omega, ?_⟩
  · unfold Pool.offset
    rw [Pool.assrt_pos (by omega), Res.ok_bind]; exact e0
  · unfold CSR.sizeOf
    have : c.pool.sizeOf i = .ok ((2 * v.length : Nat) : Int) := by
      have := Pool.sizeOf_ok h hr
      rw [crow_len] at this
      exact this
    rw [this, Res.ok_bind, Int.tdiv_eq_ediv_of_nonneg (by omega)]
    congr 1
    omega
  · intro j x hx
    refine h.cells i (crow v) j x hr ?_
    unfold crow Row.full
    rw [List.getElem?_map, hx]; rfl

/-- The entries of rows `i`, `i+1`, … -/
def listRows (i : Nat) : List (List (Int × α)) → List (Int × Int × α)
  | [] => []
  | v :: vs => v.map (fun q => ((i : Int), q.1, q.2)) ++ listRows (i + 1) vs

theorem entriesFrom_ok (P : Pun α) {c : CSR α} {vs : List (List (Int × α))} (h : c.Has vs) :
    ∀ (k i : Nat), i + k = vs.length → entriesFrom P c i k = .ok (listRows i (vs.drop i))
  | 0, i, hi => by rw [List.drop_of_length_le (by omega)]; rfl
  | k + 1, i, hi => by
    obtain ⟨o, h1, h2, _, _, _, h3⟩ := h.row (List.getElem?_eq_getElem (show i < vs.length by omega))
    have ih := entriesFrom_ok P h k (i + 1) (by omega)
    unfold entriesFrom
    rw [h2, Res.ok_bind, h1, Res.ok_bind, Int.toNat_natCast, readPairs_ok P _ _ _ h3, Res.ok_bind]
    have e : (i : Int) + 1 = ((i + 1 : Nat) : Int) := by omega
    rw [e, ih, Res.ok_bind, List.drop_eq_getElem_cons (show i < vs.length by omega)]
    rfl

theorem entries_ok (P : Pun α) {c : CSR α} {vs : List (List (Int × α))} (h : c.Has vs) :
    c.entries P = .ok (listRows 0 vs) := by
  have hsz : c.pool.size = ((vs.map crow).length : Int) := h.size
  unfold entries
  rw [hsz, List.length_map, Int.toNat_natCast]
  have := entriesFrom_ok P h vs.length 0 (by omega)
  exact this

theorem listRows_range' (f : Nat → List (Int × α)) : ∀ (k i : Nat), listRows i ((List.range' i k).map f) =
    (List.range' i k).flatMap fun i => (f i).map fun q => ((i : Int), q.1, q.2)
  | 0, i => rfl
  | k + 1, i => by
    rw [List.range'_succ, List.map_cons, List.flatMap_cons, ← listRows_range' f k (i + 1)]
    rfl

theorem listRows_range (f : Nat → List (Int × α)) (n : Nat) : listRows 0 ((List.range n).map f) =
    (List.range n).flatMap fun i => (f i).map fun q => ((i : Int), q.1, q.2) := by
  rw [List.range_eq_range']
  exact listRows_range' f n 0

theorem scan_ok (P : Pun α) (arr : Arr (CCell α)) (j : Int) (w : α) : ∀ (v : List (Int × α)) (a k : Nat),
    (∀ t c, (v.flatMap pair)[t]? = some c → arr[a + t]? = some (some c)) → v.length ≤ k →
    (v.find? fun e => e.1 = j) = some (j, w) → scan P arr j a k = .ok w
  | [], a, k, _, _, hf => by simp at hf
  | e :: v, a, 0, _, hk, _ => by simp at hk
  | e :: v, a, k + 1, h, hk, hf => by
    have h0 := h 0 (.ix e.1) (by simp [pair])
    have h1 := h 1 (.val e.2) (by simp [pair])
    unfold scan
    rw [Arr.rd_ok' (k := a) rfl h0, Res.ok_bind]
    by_cases c : e.1 = j
    · rw [if_pos (by exact c), Arr.rd_ok' (k := a + 1) (by omega) h1]
      rw [List.find?_cons_of_pos (by simpa using c)] at hf
      injection hf with hf
      rw [hf]; rfl
    · rw [if_neg (by exact c)]
      rw [List.find?_cons_of_neg (by simpa using c)] at hf
      have e2 : (a : Int) + 2 = ((a + 2 : Nat) : Int) := by omega
      rw [e2]
      refine scan_ok P arr j w v (a + 2) k (fun t c hc => ?_) (by simpa using hk) hf
      have := h (t + 2) c (by
        rw [List.flatMap_cons]
        simpa [pair] using hc)
      rw [← this]; congr 1; omega

/-! ## The transpose -/

theorem bump_ok {len : List Int} {j : Nat} {v : Int} (h : len[j]? = some v) : bump len j = .ok (len.set j (v + 1)) := by
  unfold bump
  rw [if_neg (by omega), Int.toNat_natCast, h]

/-- The entries of column `j` as the row `j` of the transpose. -/
def col (es : List (Int × Int × α)) (j : Nat) : List (Int × α) :=
  (es.filter fun e => e.2.1 = (j : Int)).map fun e => (e.1, e.2.2)

theorem col_append (es fs : List (Int × Int × α)) (j : Nat) : col (es ++ fs) j = col es j ++ col fs j := by
  simp [col, List.filter_append]

theorem col_self {e : Int × Int × α} {q : Nat} (h : e.2.1 = (q : Int)) : col [e] q = [(e.1, e.2.2)] := by
  simp [col, h]

theorem col_other {e : Int × Int × α} {q k : Nat} (h : e.2.1 = (q : Int)) (c : ¬ q = k) : col [e] k = [] := by
  have : ¬ e.2.1 = (k : Int) := by omega
  simp [col, this]

theorem countCols_ok {m : Nat} : ∀ (es : List (Int × Int × α)) (f : Nat → Nat), (∀ e ∈ es, 0 ≤ e.2.1 ∧ e.2.1 < m) →
    countCols es ((List.range m).map fun j => (f j : Int)) =
      .ok ((List.range m).map fun j => ((f j + (col es j).length : Nat) : Int))
  | [], f, _ => by simp [countCols, col]
  | e :: es, f, h => by
    obtain ⟨q, hq⟩ := Int.eq_ofNat_of_zero_le (h e (by simp)).1
    have hqm : q < m := by have := (h e (by simp)).2; omega
    unfold countCols
    rw [hq, bump_ok (j := q) (v := f q) (by rw [List.getElem?_map, List.getElem?_range hqm]; rfl), Res.ok_bind]
    have e1 : ((List.range m).map fun j => (f j : Int)).set q ((f q : Int) + 1) =
        (List.range m).map fun j => ((if j = q then f q + 1 else f j : Nat) : Int) := by
      apply List.ext_getElem?
      intro k
      rw [List.getElem?_set, List.length_map, List.length_range]
      by_cases c : q = k
      · subst c
        rw [if_pos rfl, if_pos hqm, List.getElem?_map, List.getElem?_range hqm]
        simp
      · rw [if_neg c, List.getElem?_map, List.getElem?_map]
        by_cases d : k < m
        · rw [List.getElem?_range d]
          simp only [Option.map_some]
          rw [if_neg fun e => c e.symm]
        · rw [List.getElem?_eq_none (by simpa using d)]; rfl
    rw [e1, countCols_ok es _ fun e he => h e (List.mem_cons_of_mem _ he)]
    congr 1
    apply List.map_congr_left
    intro j _
    have : col (e :: es) j = col [e] j ++ col es j := col_append [e] es j
    rw [this, List.length_append]
    by_cases c : j = q
    · subst c
      have : (col [e] j).length = 1 := by simp [col, hq]
      rw [if_pos rfl, this]; congr 1; omega
    · rw [if_neg c, col_other hq fun e => c e.symm]; congr 1; simp

/-- A row of the transpose while it is being filled. -/
def open' (l : Nat) (v : List (Int × α)) : Row (CCell α) :=
  ⟨2 * l, (v.flatMap pair).map some ++ List.replicate (2 * l - 2 * v.length) none⟩

theorem open_full {l : Nat} {v : List (Int × α)} (h : v.length = l) : open' l v = crow v := by
  unfold open' crow Row.full
  rw [h, Nat.sub_self, List.replicate_zero, List.append_nil, length_pairs, h]

theorem open_len {l : Nat} {v : List (Int × α)} (h : v.length ≤ l) : (open' l v).cells.length = 2 * l := by
  unfold open'
  simp only [List.length_append, List.length_map, length_pairs, List.length_replicate]
  omega

theorem layout_ok : ∀ (len : List Nat) (p : Pool (CCell α)) (rows : List (Row (CCell α))) (n : Nat),
    p.Part n rows → rows.length + len.length = n → p.tail + (2 * len.sum : Nat) ≤ p.memsize →
    ∃ p', layout rows.length (len.map fun l : Nat => (l : Int)) p = .ok p' ∧ p'.Holds (rows ++ len.map fun l => open' l [])
  | [], p, rows, n, h, hn, _ => by
    refine ⟨p, rfl, ?_⟩
    simp only [List.map_nil, List.append_nil, List.length_nil, Nat.add_zero] at hn ⊢
    unfold Pool.Holds; rw [hn]; exact h
  | l :: len, p, rows, n, h, hn, hm => by
    simp only [List.length_cons, List.sum_cons] at hn hm
    obtain ⟨d, e1, e2, e3, e4, e5⟩ := Dir.set2_ok p.tail (2 * (l : Int)) h.dir (show rows.length < n by omega)
    obtain ⟨d1, g1, g2⟩ := Res.bind_eq_ok.mp e1
    have hpart : Pool.Part { p with dir := d, tail := p.tail + 2 * (l : Int) } n (rows ++ [open' l []]) := by
      refine Pool.part_snoc h (open' l []) e2 (by omega) (by simp only [open']; omega) (by dsimp only; omega) h.arr
        (by rw [open_len (by simp)]; exact Nat.le_refl _) e3 (by rw [open_len (by simp)]; exact e4) ?_ ?_ ?_
      · intro k hk; exact e5 k (by omega) (by omega)
      · intro k _; rfl
      · intro j x hx
        simp only [open', List.flatMap_nil, List.map_nil, List.nil_append, List.getElem?_replicate] at hx
        split at hx <;> simp at hx
    obtain ⟨p', f1, f2⟩ := layout_ok len _ _ n hpart (by simp; omega) (by dsimp only; omega)
    refine ⟨p', ?_, ?_⟩
    · rw [List.map_cons]
      unfold layout
      rw [g1, Res.ok_bind, g2, Res.ok_bind]
      rw [List.length_append, List.length_singleton] at f1
      exact f1
    · rw [List.append_assoc] at f2
      exact f2

theorem place_ok {m : Nat} (total : Nat → Nat) : ∀ (es done : List (Int × Int × α)) (p : Pool (CCell α)),
    (∀ e ∈ es, 0 ≤ e.2.1 ∧ e.2.1 < m) → (∀ j < m, (col (done ++ es) j).length = total j) →
    p.Holds ((List.range m).map fun j => open' (total j) (col done j)) →
    ∃ p', place es ((List.range m).map fun j => ((col done j).length : Int)) p = .ok p' ∧
      p'.Holds ((List.range m).map fun j => open' (total j) (col (done ++ es) j))
  | [], done, p, _, _, h => ⟨p, rfl, by rw [List.append_nil]; exact h⟩
  | e :: es, done, p, he, ht, h => by
    obtain ⟨q, hq⟩ := Int.eq_ofNat_of_zero_le (he e (by simp)).1
    have hqm : q < m := by have := (he e (by simp)).2; omega
    have hrow : ((List.range m).map fun j => open' (total j) (col done j))[q]? = some (open' (total q) (col done q)) := by
      rw [List.getElem?_map, List.getElem?_range hqm]; rfl
    have hcq : col [e] q = [(e.1, e.2.2)] := by simp [col, hq]
    have hlt : (col done q).length < total q := by
      rw [← ht q hqm, show done ++ e :: es = done ++ [e] ++ es by simp, col_append, col_append, hcq]
      simp only [List.length_append, List.length_singleton]
      omega
    have hsz : p.size = (m : Int) := by
      have := h.size
      simpa using this
    have hoff : p.offset (q : Int) = .ok (off ((List.range m).map fun j => open' (total j) (col done j)) q : Int) := by
      unfold Pool.offset
      rw [hsz, Pool.assrt_pos (by omega), Res.ok_bind]
      exact h.off_at hrow
    have hbound : off ((List.range m).map fun j => open' (total j) (col done j)) q + (2 * (col done q).length + 1) < p.arr.length := by
      have h1 := h.bound hrow (j := 2 * (col done q).length + 1) (by simp only [open']; omega)
      have h2 := h.tail
      have h3 := h.mem
      have h4 := h.arr
      omega
    generalize ho : off ((List.range m).map fun j => open' (total j) (col done j)) q = o at *
    have hupd : Pool.Holds { p with arr := (p.arr.set (o + 2 * (col done q).length) (some (.ix e.1))).set (o + 2 * (col done q).length + 1) (some (.val e.2.2)) }
        ((List.range m).map fun j => open' (total j) (col (done ++ [e]) j)) := by
      have hset : ((List.range m).map fun j => open' (total j) (col (done ++ [e]) j)) =
          ((List.range m).map fun j => open' (total j) (col done j)).set q (open' (total q) (col done q ++ [(e.1, e.2.2)])) := by
        apply List.ext_getElem?
        intro k
        rw [List.getElem?_set, List.length_map, List.length_range]
        by_cases c : q = k
        · subst c
          rw [if_pos rfl, if_pos hqm, List.getElem?_map, List.getElem?_range hqm, Option.map_some, col_append, hcq]
        · rw [if_neg c, List.getElem?_map, List.getElem?_map]
          by_cases d : k < m
          · rw [List.getElem?_range d, Option.map_some, Option.map_some, col_append]
            rw [col_other hq c, List.append_nil]
          · rw [List.getElem?_eq_none (by simpa using d)]; rfl
      rw [hset]
      unfold Pool.Holds
      rw [List.length_set]
      refine Pool.part_upd h hrow rfl ?_ h.dir rfl rfl (by simp) ?_ (fun _ _ => rfl) ?_ ?_
      · rw [open_len (by simp; omega)]; exact Nat.le_refl _
      · rw [open_len (by simp; omega)]
        have := h.dir1 q _ hrow
        rw [open_len (by omega)] at this
        exact this
      · intro k hk
        rw [ho] at hk
        dsimp only
        simp only [open'] at hk
        rw [List.getElem?_set_ne (by omega), List.getElem?_set_ne (by omega)]
      · intro j v hv
        rw [ho]
        dsimp only
        have hL := length_pairs (col done q)
        simp only [open', List.flatMap_append, List.map_append, List.flatMap_cons, List.flatMap_nil, List.append_nil,
          pair, List.map_cons, List.map_nil, List.append_assoc, List.length_append, List.length_singleton] at hv
        by_cases c1 : j < 2 * (col done q).length
        · rw [List.getElem?_set_ne (by omega), List.getElem?_set_ne (by omega)]
          rw [List.getElem?_append_left (by simpa [hL] using c1)] at hv
          have := h.cells q _ j v hrow (by
            simp only [open']
            rw [List.getElem?_append_left (by simpa [hL] using c1)]; exact hv)
          rw [ho] at this
          exact this
        · rw [List.getElem?_append_right (by simp [hL]; omega), List.length_map, hL] at hv
          by_cases c2 : j = 2 * (col done q).length
          · subst c2
            rw [Nat.sub_self] at hv
            simp at hv
            subst hv
            rw [List.getElem?_set_ne (by omega), List.getElem?_set_self (by omega)]
          · by_cases c3 : j = 2 * (col done q).length + 1
            · subst c3
              rw [Nat.add_sub_cancel_left] at hv
              simp at hv
              subst hv
              rw [← Nat.add_assoc, List.getElem?_set_self (by simp; omega)]
            · obtain ⟨k, hk⟩ : ∃ k, j - 2 * (col done q).length = k + 2 := ⟨j - 2 * (col done q).length - 2, by omega⟩
              rw [hk] at hv
              simp only [List.cons_append, List.nil_append, List.getElem?_cons_succ, List.getElem?_replicate] at hv
              split at hv <;> simp at hv
    obtain ⟨p', f1, f2⟩ := place_ok total es (done ++ [e]) _ (fun e' h' => he e' (List.mem_cons_of_mem _ h'))
      (fun j hj => by rw [List.append_assoc]; exact ht j hj) hupd
    refine ⟨p', ?_, by rw [List.append_assoc] at f2; exact f2⟩
    unfold place
    have hlen : ((List.range m).map fun j => ((col done j).length : Int))[q]? = some ((col done q).length : Int) := by
      rw [List.getElem?_map, List.getElem?_range hqm]; rfl
    have hget : Res.get ((List.range m).map fun j => ((col done j).length : Int)) q = .ok ((col done q).length : Int) := by
      unfold Res.get
      rw [hlen]
    rw [hq]
    rw [Int.toNat_natCast, hoff, Res.ok_bind, hget, Res.ok_bind,
      Arr.wr_ok' (k := o + 2 * (col done q).length) _ (by omega) (by omega), Res.ok_bind,
      Arr.wr_ok' (k := o + 2 * (col done q).length + 1) _ (by omega) (by simp; omega), Res.ok_bind,
      bump_ok hlen, Res.ok_bind]
    have e1 : ((List.range m).map fun j => ((col done j).length : Int)).set q ((col done q).length + 1) =
        (List.range m).map fun j => ((col (done ++ [e]) j).length : Int) := by
      apply List.ext_getElem?
      intro k
      rw [List.getElem?_set, List.length_map, List.length_range]
      by_cases c : q = k
      · subst c
        rw [if_pos rfl, if_pos hqm, List.getElem?_map, List.getElem?_range hqm, Option.map_some, col_append, hcq]
        simp
      · rw [if_neg c, List.getElem?_map, List.getElem?_map]
        by_cases d : k < m
        · rw [List.getElem?_range d, Option.map_some, Option.map_some, col_append]
          rw [col_other hq c, List.append_nil]
        · rw [List.getElem?_eq_none (by simpa using d)]; rfl
    rw [e1]
    exact f1

theorem sum_col {m : Nat} (es : List (Int × Int × α)) (h : ∀ e ∈ es, 0 ≤ e.2.1 ∧ e.2.1 < m) :
    ((List.range m).map fun j => (col es j).length).sum = es.length := by
  induction es with
  | nil => simp [col]
  | cons e es ih =>
    obtain ⟨q, hq⟩ := Int.eq_ofNat_of_zero_le (h e (by simp)).1
    have hqm : q < m := by have := (h e (by simp)).2; omega
    have e1 : ∀ j, (col (e :: es) j).length = (if j = q then 1 else 0) + (col es j).length := by
      intro j
      have : col (e :: es) j = col [e] j ++ col es j := col_append [e] es j
      rw [this, List.length_append]
      congr 1
      by_cases c : j = q
      · subst c
        rw [col_self hq, if_pos rfl]; rfl
      · rw [col_other hq fun e => c e.symm, if_neg c]; rfl
    have e2 : ∀ k, ((List.range k).map fun j => (if j = q then 1 else 0) + (col es j).length).sum =
        (if q < k then 1 else 0) + ((List.range k).map fun j => (col es j).length).sum := by
      intro k
      induction k with
      | zero => simp
      | succ k ihk =>
        simp only [List.range_succ, List.map_append, List.sum_append, ihk, List.map_cons, List.map_nil, List.sum_cons,
          List.sum_nil]
        split <;> split <;> split <;> omega
    have e3 : ((List.range m).map fun j => (col (e :: es) j).length) =
        (List.range m).map fun j => (if j = q then 1 else 0) + (col es j).length :=
      List.map_congr_left fun j _ => e1 j
    rw [e3, e2, if_pos hqm, ih fun e he => h e (List.mem_cons_of_mem _ he), List.length_cons]
    omega

theorem off_crow (vs : List (List (Int × α))) (i : Nat) : off (vs.map crow) vs.length = 2 * (listRows i vs).length := by
  have : ∀ (vs : List (List (Int × α))) (i : Nat), ((vs.map crow).map (·.room)).sum = 2 * (listRows i vs).length := by
    intro vs
    induction vs with
    | nil => intro i; rfl
    | cons v vs ih =>
      intro i
      rw [List.map_cons, List.map_cons, List.sum_cons, ih (i + 1), crow_room]
      show _ = 2 * (v.map (fun q => ((i : Int), q.1, q.2)) ++ listRows (i + 1) vs).length
      rw [List.length_append, List.length_map]
      omega
  unfold off
  rw [List.take_of_length_le (by simp)]
  exact this vs i

/-- `make_transp()` succeeds and the new matrix has the columns as its rows. -/
theorem makeTransp_ok (P : Pun α) {c : CSR α} {vs : List (List (Int × α))} (h : c.Has vs) {m : Nat} (hm : c.m = m)
    (hcol : ∀ e ∈ listRows 0 vs, 0 ≤ e.2.1 ∧ e.2.1 < m) :
    ∃ t, makeTransp P c = .ok t ∧ t.n = m ∧ t.m = c.n ∧ t.Has ((List.range m).map (col (listRows 0 vs))) := by
  have htail : c.pool.tail = ((2 * (listRows 0 vs).length : Nat) : Int) := by
    have := h.tail
    rw [List.length_map, off_crow vs 0] at this
    exact this
  obtain ⟨p, e1, e2, e3, e4, e5, e6, e7⟩ := Pool.reserve_ok (Pool.part_ofSize m (α := CCell α)) c.pool.tail
  have hz : ∀ k, List.replicate k (0 : Int) = (List.range k).map fun j => ((fun _ => 0 : Nat → Nat) j : Int) := by
    intro k
    rw [List.map_const', List.length_range]; rfl
  have hz' : ∀ k, List.replicate k (0 : Int) = (List.range k).map fun j => ((col ([] : List (Int × Int × α)) j).length : Int) := hz
  have hc := countCols_ok (listRows 0 vs) (fun _ => 0) hcol
  obtain ⟨p1, f1, f2⟩ := layout_ok ((List.range m).map fun j => (col (listRows 0 vs) j).length) { p with tail := 0 } [] m
    (Pool.part_nil (by rw [e2]; exact Dir.fits_raw m) rfl (by rw [htail] at e4; dsimp only; omega) e6) (by simp) (by
      rw [sum_col _ hcol]; dsimp only; rw [htail] at e4; omega)
  obtain ⟨p2, g1, g2⟩ := place_ok (fun j => (col (listRows 0 vs) j).length) (listRows 0 vs) [] p1 hcol
    (fun j _ => rfl) (by
      rw [List.nil_append, List.map_map] at f2
      exact f2)
  refine ⟨⟨p2, m, c.n⟩, ?_, rfl, rfl, ?_⟩
  · unfold makeTransp
    rw [hm, e1, Res.ok_bind, Pool.assrt_pos (by omega), Res.ok_bind, entries_ok P h, Res.ok_bind, Int.toNat_natCast, hz m,
      hc, Res.ok_bind]
    simp only [Nat.zero_add]
    have f1' : layout 0 ((List.range m).map fun j => ((col (listRows 0 vs) j).length : Int)) { p with tail := 0 } = .ok p1 := by
      rw [← f1, List.map_map]; rfl
    rw [f1', Res.ok_bind, ← hz m, hz' m, g1, Res.ok_bind]
  · unfold Has
    rw [List.map_map]
    rw [List.nil_append] at g2
    have : ((List.range m).map fun j => open' ((col (listRows 0 vs) j).length) (col (listRows 0 vs) j)) =
        (List.range m).map (crow ∘ col (listRows 0 vs)) :=
      List.map_congr_left fun j _ => open_full rfl
    rw [← this]
    exact g2

end CSR

end Cnine
