import Verif.Props.PoolCat

/-!
# C38: headed lists
-/

namespace Cnine

open HeadSpec

variable {α : Type _}

namespace HL

/-- A headed list as a row of the underlying pool. -/
def toRow (r : HRow α) : PoolSpec.Row α := ⟨r.room + 1, r.head :: r.cells⟩

/-- The pool represents the headed lists. -/
def Holds (p : Pool α) (rows : List (HRow α)) : Prop := Pool.Holds p (rows.map toRow)

/-- What the accessors of `hlists` return when it stands for `rows`. -/
structure Reads (p : Pool α) (rows : List (HRow α)) : Prop where
  size : p.size = rows.length
  total : HL.total p = ((rows.map HRow.room).sum : Nat)
  sizeOf : ∀ i r, rows[i]? = some r → HL.sizeOf p (i : Nat) = .ok (r.cells.length : Int)
  head : ∀ i r v, rows[i]? = some r → r.head = some v → HL.head p (i : Nat) = .ok v
  get : ∀ i r j v, rows[i]? = some r → r.cells[j]? = some (some v) → HL.get p (i : Nat) (j : Nat) = .ok v
  list : ∀ i r v, rows[i]? = some r → r.cells = v.map some → HL.list p (i : Nat) = .ok v
  noRow : ∀ i : Nat, rows.length ≤ i →
    (∀ j, HL.get p i j = .throw) ∧ HL.list p i = .throw ∧ HL.sizeOf p i = .throw ∧ HL.head p i = .throw
  noCol : ∀ i r (j : Nat), rows[i]? = some r → r.cells.length ≤ j → HL.get p (i : Nat) j = .throw

theorem off_toRow (rows : List (HRow α)) :
    off (rows.map toRow) rows.length = (rows.map HRow.room).sum + rows.length := by
  unfold off
  rw [List.take_of_length_le (by simp), List.map_map]
  induction rows with
  | nil => rfl
  | cons r l ih =>
    simp only [List.map_cons, List.sum_cons, List.length_cons, ih, Function.comp, toRow]
    omega

theorem get_map {rows : List (HRow α)} {i : Nat} {r : HRow α} (h : rows[i]? = some r) :
    (rows.map toRow)[i]? = some (toRow r) := by rw [List.getElem?_map, h]; rfl

theorem get_eq (p : Pool α) (i j : Int) : HL.get p i j = p.get i (j + 1) := by
  unfold HL.get Pool.get
  congr 1; funext _
  congr 1; funext len
  rw [decide_eq_decide.mpr (show j < len - 1 ↔ j + 1 < len by omega)]
  congr 1; funext _
  congr 1; funext o
  rw [Int.add_assoc]

theorem set_eq (p : Pool α) (i j : Int) (v : α) : HL.set p i j v = p.set i (j + 1) v := by
  unfold HL.set Pool.set
  congr 1; funext _
  congr 1; funext len
  rw [decide_eq_decide.mpr (show j < len - 1 ↔ j + 1 < len by omega)]
  congr 1; funext _
  congr 1; funext o
  rw [Int.add_assoc]

theorem pushVec_eq (p : Pool α) (h : α) (v : List α) : HL.pushVec p h v = p.pushVec (h :: v) := by
  unfold HL.pushVec Pool.pushVec
  dsimp only
  have : ((h :: v).length : Int) = (v.length : Int) + 1 := by simp
  rw [this]
  congr 1; funext p
  have e : p.arr.wrList p.tail (h :: v) = (p.arr.wr p.tail h >>= fun a => a.wrList (p.tail + 1) v) := rfl
  rw [e]
  cases p.arr.wr p.tail h <;> rfl

theorem Holds.reads {p : Pool α} {rows : List (HRow α)} (h : Holds p rows) : Reads p rows := by
  have hp := Pool.Holds.reads h
  have hs : p.size = rows.length := by simpa using hp.size
  have ht : p.tail = _ := h.tail
  have hlt : ∀ {i : Nat} {r : HRow α}, rows[i]? = some r → i < rows.length := fun hi =>
    (List.getElem?_eq_some_iff.mp hi).1
  refine ⟨hs, ?_, ?_, ?_, ?_, ?_, ?_, ?_⟩
  · unfold HL.total Pool.total
    rw [ht, hs, List.length_map, off_toRow]
    omega
  · intro i r hi
    have := hlt hi
    unfold HL.sizeOf
    rw [Pool.assrt_pos (by omega), Res.ok_bind, Pool.Part.len_at h (get_map hi), Res.ok_bind]
    congr 1
    simp [toRow]
  · intro i r v hi hv
    have := hlt hi
    unfold HL.head
    rw [Pool.assrt_pos (by omega), Res.ok_bind, Pool.Part.off_at h (get_map hi), Res.ok_bind]
    exact Arr.rd_ok' rfl (h.cells i _ 0 v (get_map hi) (by simp [toRow, hv]))
  · intro i r j v hi hv
    rw [get_eq]
    exact hp.get i (toRow r) (j + 1) v (get_map hi) (by simpa [toRow] using hv)
  · intro i r v hi hv
    have := hlt hi
    unfold HL.list
    rw [Pool.assrt_pos (by omega), Res.ok_bind, Pool.Part.off_at h (get_map hi), Res.ok_bind,
      Pool.Part.len_at h (get_map hi), Res.ok_bind]
    have e : ((toRow r).cells.length : Int) - 1 = (v.length : Int) := by simp [toRow, hv]
    rw [e, Pool.assrt_pos (by omega), Res.ok_bind, Int.toNat_natCast]
    apply Arr.rdList_ok v p.arr (off (rows.map toRow) i + 1)
    intro j x hx
    have := h.cells i _ (j + 1) x (get_map hi) (by simp [toRow, hv, hx])
    rw [← this]
    congr 1
    omega
  · intro i hi
    have hn : ¬ ((i : Int) < p.size) := by omega
    refine ⟨fun j => ?_, ?_, ?_, ?_⟩
    · unfold HL.get; rw [Pool.assrt_neg hn]; rfl
    · unfold HL.list; rw [Pool.assrt_neg hn]; rfl
    · unfold HL.sizeOf; rw [Pool.assrt_neg hn]; rfl
    · unfold HL.head; rw [Pool.assrt_neg hn]; rfl
  · intro i r j hi hj
    rw [get_eq]
    have := hp.noCol i (toRow r) (j + 1) (get_map hi) (by simp [toRow]; omega)
    exact this

/-- One operation on the model. -/
def step : Op α → Pool α → Res (Pool α)
  | .pushLen n, p => HL.pushLen p n
  | .pushVec h v, p => HL.pushVec p h v
  | .setHead i v, p => HL.setHead p i v
  | .set i j v, p => HL.set p i j v
  | .append i v, p => HL.append p i v
  | .copy, p => p.copy

/-- A history; an operation that throws leaves the lists as they were. -/
def exec : List (Op α) → Pool α → Res (Pool α × List Bool)
  | [], p => .ok (p, [])
  | o :: l, p =>
    match step o p with
    | .ok p' => exec l p' >>= fun r => .ok (r.1, true :: r.2)
    | .throw => exec l p >>= fun r => .ok (r.1, false :: r.2)
    | .ub => .ub

theorem setHead_eq {p : Pool α} {rows : List (HRow α)} (h : Holds p rows) {i : Nat} {r : HRow α}
    (hi : rows[i]? = some r) (v : α) : HL.setHead p i v = p.set i 0 v := by
  unfold HL.setHead Pool.set
  congr 1; funext _
  rw [Pool.Part.len_at h (get_map hi), Res.ok_bind, Pool.assrt_pos (by simp [toRow]), Res.ok_bind]
  congr 1; funext o
  rw [Int.add_zero]

theorem set_toRow {rows : List (HRow α)} {i : Nat} (r : HRow α) :
    (rows.map toRow).set i (toRow r) = (rows.set i r).map toRow := by
  rw [List.map_set]

theorem step_spec (o : Op α) {p : Pool α} {rows : List (HRow α)} (h : Holds p rows) :
    (∀ rows', HeadSpec.step o rows = some rows' → ∃ p', step o p = .ok p' ∧ Holds p' rows') ∧
    (HeadSpec.step o rows = none → step o p = .throw) := by
  have hs : p.size = rows.length := by simpa using Pool.Part.size h
  cases o with
  | pushLen n =>
    refine ⟨?_, by simp [HeadSpec.step]⟩
    rintro rows' ⟨⟩
    obtain ⟨p', e1, e2⟩ := Pool.pushLen_ok h (n + 1)
    refine ⟨p', e1, ?_⟩
    unfold Holds
    rw [List.map_append]
    exact e2
  | pushVec x v =>
    refine ⟨?_, by simp [HeadSpec.step]⟩
    rintro rows' ⟨⟩
    obtain ⟨p', e1, e2⟩ := Pool.pushVec_ok h (x :: v)
    refine ⟨p', by rw [← e1]; exact pushVec_eq p x v, ?_⟩
    unfold Holds
    rw [List.map_append]
    exact e2
  | copy =>
    refine ⟨?_, by simp [HeadSpec.step]⟩
    rintro rows' ⟨⟩
    exact Pool.copy_ok h
  | setHead i v =>
    cases hi : rows[i]? with
    | none =>
      have hl : rows.length ≤ i := List.getElem?_eq_none_iff.mp hi
      refine ⟨by simp [HeadSpec.step, hi], fun _ => ?_⟩
      simp only [step, HL.setHead]
      rw [Pool.assrt_neg (by omega)]; rfl
    | some r =>
      simp only [HeadSpec.step, hi]
      refine ⟨?_, by simp⟩
      rintro rows' ⟨⟩
      obtain ⟨p', e1, e2⟩ := Pool.set_ok h (get_map hi) (j := 0) (by simp [toRow]) v
      refine ⟨p', ?_, ?_⟩
      · rw [← e1]; exact setHead_eq h hi v
      · unfold Holds
        rw [← set_toRow]
        exact e2
  | set i j v =>
    cases hi : rows[i]? with
    | none =>
      have hl : rows.length ≤ i := List.getElem?_eq_none_iff.mp hi
      refine ⟨by simp [HeadSpec.step, hi], fun _ => ?_⟩
      simp only [step, HL.set]
      rw [Pool.assrt_neg (by omega)]; rfl
    | some r =>
      by_cases hj : j < r.cells.length
      · simp only [HeadSpec.step, hi, if_pos hj]
        refine ⟨?_, by simp⟩
        rintro rows' ⟨⟩
        obtain ⟨p', e1, e2⟩ := Pool.set_ok h (get_map hi) (j := j + 1) (by simpa [toRow] using hj) v
        refine ⟨p', ?_, ?_⟩
        · rw [← e1]; exact set_eq p i j v
        · unfold Holds
          rw [← set_toRow]
          exact e2
      · simp only [HeadSpec.step, hi, if_neg hj]
        refine ⟨by simp, fun _ => ?_⟩
        have := (Pool.step_spec (.set i (j + 1) v) h).2 (by
          simp only [PoolSpec.step, get_map hi]
          rw [if_neg (by simp [toRow]; omega)])
        rw [← this]
        exact set_eq p i j v
  | append i v =>
    have hsp := Pool.step_spec (.append i v) h
    cases hi : rows[i]? with
    | none =>
      refine ⟨by simp [HeadSpec.step, hi], fun _ => hsp.2 ?_⟩
      simp only [PoolSpec.step]
      rw [List.getElem?_map, hi]
      rfl
    | some r =>
      by_cases hj : r.cells.length < r.room
      · simp only [HeadSpec.step, hi, if_pos hj]
        refine ⟨?_, by simp⟩
        rintro rows' ⟨⟩
        obtain ⟨p', e1, e2⟩ := Pool.append_ok h (get_map hi) (by simpa [toRow] using hj) v
        refine ⟨p', e1, ?_⟩
        unfold Holds
        rw [← set_toRow]
        exact e2
      · simp only [HeadSpec.step, hi, if_neg hj]
        refine ⟨by simp, fun _ => hsp.2 ?_⟩
        simp only [PoolSpec.step, get_map hi]
        rw [if_neg (by simp [toRow]; omega)]

theorem exec_spec (ops : List (Op α)) : ∀ {p : Pool α} {rows : List (HRow α)}, Holds p rows →
    ∃ p', exec ops p = .ok (p', (HeadSpec.run ops rows).2) ∧ Holds p' (HeadSpec.run ops rows).1 := by
  induction ops with
  | nil => intro p rows h; exact ⟨p, rfl, h⟩
  | cons o l ih =>
    intro p rows h
    obtain ⟨h1, h2⟩ := step_spec o h
    cases hs : HeadSpec.step o rows with
    | some rows' =>
      obtain ⟨p1, e1, e2⟩ := h1 rows' hs
      obtain ⟨p2, f1, f2⟩ := ih e2
      refine ⟨p2, ?_, ?_⟩
      · simp only [exec, e1, HeadSpec.run, hs, f1, Res.ok_bind]
      · simpa only [HeadSpec.run, hs] using f2
    | none =>
      obtain ⟨p2, f1, f2⟩ := ih h
      refine ⟨p2, ?_, ?_⟩
      · simp only [exec, h2 hs, HeadSpec.run, hs, f1, Res.ok_bind]
      · simpa only [HeadSpec.run, hs] using f2

/-! ## Constructors -/

/-- One more row, written into a directory that was allocated in advance. -/
theorem part_fill {p : Pool α} {n : Nat} {rows : List (PoolSpec.Row α)} (h : p.Part n rows) (hn : rows.length < n)
    (x : α) (v : List α) (len room : Nat) (hv : v.length ≤ len) (hlen : len ≤ room)
    (hm : p.tail + (room + 1) ≤ p.memsize) :
    ∃ d a, (p.dir.set rows.length 0 p.tail >>= fun d => d.set rows.length 1 ((len : Int) + 1)) = .ok d ∧
      (p.arr.wr p.tail x >>= fun a => a.wrList (p.tail + 1) v) = .ok a ∧
      Pool.Part { p with dir := d, arr := a, tail := p.tail + (room + 1) } n
        (rows ++ [⟨room + 1, some x :: (v.map some ++ List.replicate (len - v.length) none)⟩]) := by
  have ht := h.tail
  have ha := h.arr
  have hmm := h.mem
  obtain ⟨d, e1, e2, e3, e4, e5⟩ := Dir.set2_ok p.tail ((len : Int) + 1) h.dir hn
  obtain ⟨a, g1, g2, g3⟩ := Arr.wrList_ok (x :: v) p.arr (off rows rows.length) (by simp; omega)
  refine ⟨d, a, e1, ?_, ?_⟩
  · rw [ht]
    unfold Arr.wrList at g1
    exact g1
  · refine Pool.part_snoc h _ e2 (by omega) (by simp) hm (by dsimp only; rw [g2]; exact ha)
      (by simp; omega) e3 ?_ (fun k hk => e5 k (by omega) (by omega)) ?_ ?_
    · rw [e4]
      congr 2
      simp
      omega
    · intro k hk
      dsimp only
      rw [g3, if_neg (by omega)]
    · intro j w hw
      dsimp only at hw ⊢
      have key : ((x :: v).map some)[j]? = some (some w) := by
        cases j with
        | zero => simpa using hw
        | succ j =>
          simp only [List.getElem?_cons_succ, List.map_cons] at hw ⊢
          rw [List.getElem?_append] at hw
          split at hw
          · exact hw
          · rw [List.getElem?_replicate] at hw
            split at hw <;> simp at hw
      exact Pool.wrList_new g3 key

/-- The rows made by the constructors from heads and lengths. -/
def initRow (full : Bool) (r : α × Nat) : HRow α :=
  ⟨some r.1, r.2, if full then List.replicate r.2 none else []⟩

theorem fill_ok (full : Bool) : ∀ (l : List (α × Nat)) (p : Pool α) (rows : List (PoolSpec.Row α)) (n : Nat),
    p.Part n rows → rows.length + l.length = n → p.tail + ((l.map (·.2)).sum + l.length : Nat) ≤ p.memsize →
    ∃ p', fill full rows.length (l.map fun r => (r.1, (r.2 : Int))) p = .ok p' ∧
      p'.Holds (rows ++ l.map fun r => toRow (initRow full r)) := by
  intro l
  induction l with
  | nil =>
    intro p rows n h hn _
    refine ⟨p, rfl, ?_⟩
    simp only [List.map_nil, List.append_nil, List.length_nil, Nat.add_zero] at hn ⊢
    unfold Pool.Holds; rw [hn]; exact h
  | cons r l ih =>
    intro p rows n h hn hm
    simp only [List.length_cons, List.map_cons, List.sum_cons] at hn hm ⊢
    obtain ⟨d, a, e1, e2, e3⟩ := part_fill h (by omega) r.1 [] (if full then r.2 else 0) r.2 (by simp)
      (by split <;> omega) (by omega)
    obtain ⟨p', f1, f2⟩ := ih _ _ n e3 (by simp; omega) (by dsimp only; omega)
    refine ⟨p', ?_, ?_⟩
    · obtain ⟨d1, g1, g2⟩ := Res.bind_eq_ok.mp e1
      unfold fill
      rw [g1, Res.ok_bind]
      have : (if full = true then (r.2 : Int) + 1 else 1) = ((if full then r.2 else 0 : Nat) : Int) + 1 := by
        split <;> simp
      rw [this, g2, Res.ok_bind]
      obtain ⟨a1, k1, k2⟩ := Res.bind_eq_ok.mp e2
      cases k2
      rw [k1, Res.ok_bind]
      rw [List.length_append, List.length_singleton] at f1
      exact f1
    · have : (⟨r.2 + 1, some r.1 :: (([] : List α).map some ++
          List.replicate ((if full = true then r.2 else 0) - ([] : List α).length) none)⟩ : PoolSpec.Row α) =
          toRow (initRow full r) := by
        simp only [toRow, initRow]
        cases full <;> simp
      rw [this, List.append_assoc] at f2
      exact f2

theorem sum_cast (l : List Nat) : (l.map fun n : Nat => (n : Int)).sum = ((l.sum : Nat) : Int) := by
  induction l with
  | nil => rfl
  | cons a l ih => simp only [List.map_cons, List.sum_cons, ih]; omega

/-- The constructors from heads and lengths represent the heads with unwritten (`full`) or empty lists. -/
theorem C38_ofLengths (full : Bool) (heads : List α) (lengths : List Nat) (hl : heads.length = lengths.length) :
    ∃ p, ofLengths full heads (lengths.map fun n : Nat => (n : Int)) = .ok p ∧
      Holds p ((heads.zip lengths).map (initRow full)) := by
  have hz : (heads.zip lengths).length = lengths.length := by simp [hl]
  have hz2 : (heads.zip lengths).map (·.2) = lengths := by rw [← List.unzip_snd, List.unzip_zip hl]
  obtain ⟨p, e1, e2⟩ := fill_ok full (heads.zip lengths) (Pool.reserved lengths.length (lengths.sum + lengths.length : Nat)) []
    lengths.length (Pool.part_reserved _ _) (by simp [hl]) (by
      rw [hz2, hz]; simp [Pool.reserved])
  refine ⟨p, ?_, ?_⟩
  · unfold ofLengths
    dsimp only
    rw [Pool.assrt_pos (by simpa using hl), Res.ok_bind, sum_cast]
    have e0 : heads.zip (lengths.map fun n : Nat => (n : Int)) = (heads.zip lengths).map fun r => (r.1, (r.2 : Int)) := by
      rw [List.zip_map_right]; rfl
    rw [e0, List.length_map]
    have : (((lengths.sum : Nat) : Int) + (lengths.length : Int)) = ((lengths.sum + lengths.length : Nat) : Int) := by omega
    rw [this]
    exact e1
  · unfold Holds
    rw [List.map_map]
    rw [List.nil_append] at e2
    exact e2

/-- The constructors from heads and lengths throw when the two differ in number. -/
theorem C38_ofLengths_throw (full : Bool) (heads : List α) (lengths : List Int)
    (hl : heads.length ≠ lengths.length) : ofLengths full heads lengths = .throw := by
  unfold ofLengths
  dsimp only
  rw [Pool.assrt_neg hl]; rfl

theorem fillMap_ok : ∀ (l : List (α × List α)) (p : Pool α) (rows : List (PoolSpec.Row α)) (n : Nat),
    p.Part n rows → rows.length + l.length = n →
    p.tail + ((l.map (·.2.length)).sum + l.length : Nat) ≤ p.memsize →
    ∃ p', fillMap rows.length l p = .ok p' ∧ p'.Holds (rows ++ l.map fun r => toRow (HRow.full r.1 r.2)) := by
  intro l
  induction l with
  | nil =>
    intro p rows n h hn _
    refine ⟨p, rfl, ?_⟩
    simp only [List.map_nil, List.append_nil, List.length_nil, Nat.add_zero] at hn ⊢
    unfold Pool.Holds; rw [hn]; exact h
  | cons r l ih =>
    intro p rows n h hn hm
    simp only [List.length_cons, List.map_cons, List.sum_cons] at hn hm ⊢
    obtain ⟨d, a, e1, e2, e3⟩ := part_fill h (by omega) r.1 r.2 r.2.length r.2.length (Nat.le_refl _)
      (Nat.le_refl _) (by omega)
    obtain ⟨p', f1, f2⟩ := ih _ _ n e3 (by simp; omega) (by dsimp only; omega)
    refine ⟨p', ?_, ?_⟩
    · obtain ⟨d1, g1, g2⟩ := Res.bind_eq_ok.mp e1
      obtain ⟨a1, k1, k2⟩ := Res.bind_eq_ok.mp e2
      unfold fillMap
      rw [g1, Res.ok_bind, g2, Res.ok_bind, k1, Res.ok_bind, k2, Res.ok_bind]
      rw [List.length_append, List.length_singleton] at f1
      exact f1
    · rw [Nat.sub_self, List.replicate_zero, List.append_nil, List.append_assoc] at f2
      exact f2

/-- The constructor from a map of lists represents its keys with their lists. -/
theorem C38_ofMap (l : List (α × List α)) :
    ∃ p, ofMap l = .ok p ∧ Holds p (l.map fun r => HRow.full r.1 r.2) := by
  obtain ⟨p, e1, e2⟩ := fillMap_ok l (Pool.reserved l.length (l.length + (l.map (·.2.length)).sum : Nat)) []
    l.length (Pool.part_reserved _ _) (by simp) (by simp [Pool.reserved]; omega)
  refine ⟨p, ?_, ?_⟩
  · unfold ofMap
    have : (l.map fun r => (r.2.length : Int)).sum = (((l.map (·.2.length)).sum : Nat) : Int) := by
      rw [← sum_cast, List.map_map]; rfl
    rw [this, show ((l.length : Int) + (((l.map (·.2.length)).sum : Nat) : Int)) =
      ((l.length + (l.map (·.2.length)).sum : Nat) : Int) by omega]
    exact e1
  · unfold Holds
    rw [List.map_map]
    rw [List.nil_append] at e2
    exact e2

/-! ## C38 -/

theorem holds_empty : Holds (Pool.empty : Pool α) [] := Pool.holds_empty

/-- C38: after any history of `push_back(len)`, `push_back(head,vector)`, `set_head`, `set`, element append
and copy the headed lists read back, `total()` being the room of all lists together. -/
theorem C38_history_partial (ops : List (Op α)) :
    ∃ p, exec ops Pool.empty = .ok (p, (HeadSpec.run ops []).2) ∧ Reads p (HeadSpec.run ops []).1 := by
  obtain ⟨p, h1, h2⟩ := exec_spec ops (holds_empty (α := α))
  exact ⟨p, h1, h2.reads⟩

/-- The same from the constructor with heads and lengths (`full`: lists of unwritten entries; otherwise empty
lists with room, `fill_noalloc`). -/
theorem C38_history_lengths_partial (full : Bool) (heads : List α) (lengths : List Nat)
    (hl : heads.length = lengths.length) (ops : List (Op α)) :
    ∃ p0 p, ofLengths full heads (lengths.map fun n : Nat => (n : Int)) = .ok p0 ∧
      exec ops p0 = .ok (p, (HeadSpec.run ops ((heads.zip lengths).map (initRow full))).2) ∧
      Reads p (HeadSpec.run ops ((heads.zip lengths).map (initRow full))).1 := by
  obtain ⟨p0, h0, h1⟩ := C38_ofLengths full heads lengths hl
  obtain ⟨p, h2, h3⟩ := exec_spec ops h1
  exact ⟨p0, p, h0, h2, h3.reads⟩

theorem rows_ok (p : Pool α) (l : List (α × List α)) (h : Holds p (l.map fun r => HRow.full r.1 r.2)) :
    ∀ (k i : Nat), i + k = l.length → rows p i k = .ok (l.drop i) := by
  have hr := Holds.reads h
  intro k
  induction k with
  | zero =>
    intro i hi
    rw [List.drop_of_length_le (by omega)]; rfl
  | succ k ih =>
    intro i hi
    have hl : l[i]? = some l[i] := List.getElem?_eq_getElem (by omega)
    have hm : (l.map fun r => HRow.full r.1 r.2)[i]? = some (HRow.full l[i].1 l[i].2) := by
      rw [List.getElem?_map, hl]; rfl
    have e := ih (i + 1) (by omega)
    unfold rows
    rw [hr.head i _ _ hm rfl, Res.ok_bind, hr.list i _ _ hm rfl, Res.ok_bind]
    have e' : rows p ((i : Int) + 1) k = .ok (l.drop (i + 1)) := e
    rw [e', Res.ok_bind, List.drop_eq_getElem_cons (show i < l.length by omega)]

theorem forEach_ok (p : Pool α) (l : List (α × List α)) (h : Holds p (l.map fun r => HRow.full r.1 r.2)) :
    forEach p = .ok l := by
  have hs : p.size = l.length := by simpa using (Holds.reads h).size
  unfold forEach
  rw [hs, Int.toNat_natCast]
  have := rows_ok p l h l.length 0 (by omega)
  simpa using this

/-- C38: pushing pairs one by one gives exactly those pairs, visited in order by `for_each`, and `total()`
is the number of elements. -/
theorem C38_pairs_partial (l : List (α × List α)) :
    ∃ p fl, exec (l.map fun r => .pushVec r.1 r.2) Pool.empty = .ok (p, fl) ∧ p.size = l.length ∧
      forEach p = .ok l ∧ HL.total p = ((l.map (·.2.length)).sum : Nat) := by
  have hrun : ∀ (l : List (α × List α)) (rows : List (HRow α)),
      (HeadSpec.run (l.map fun r => .pushVec r.1 r.2) rows).1 = rows ++ l.map fun r => HRow.full r.1 r.2 := by
    intro l
    induction l with
    | nil => intro rows; simp [HeadSpec.run]
    | cons r l ih => intro rows; simp [HeadSpec.run, HeadSpec.step, ih]
  obtain ⟨p, h1, h2⟩ := exec_spec (l.map fun r => .pushVec r.1 r.2) (holds_empty (α := α))
  rw [hrun l [], List.nil_append] at h2
  refine ⟨p, _, h1, by simpa using (Holds.reads h2).size, forEach_ok p l h2, ?_⟩
  rw [(Holds.reads h2).total, List.map_map]
  rfl

/-- C38: a map of lists becomes its pairs, in the order of the keys. -/
theorem C38_ofMap_pairs (l : List (α × List α)) : ∃ p, ofMap l = .ok p ∧ forEach p = .ok l := by
  obtain ⟨p, h1, h2⟩ := C38_ofMap l
  exact ⟨p, h1, forEach_ok p l h2⟩

/-- `push_back(head,set)` is right for sets of at most one element. -/
theorem C38_pushSet_small (p : Pool α) (h : α) (v : List α) (hv : v.length ≤ 1) :
    pushSet p h v = HL.pushVec p h v := by
  unfold pushSet HL.pushVec
  match v, hv with
  | [], _ => rfl
  | [_], _ => rfl

/-- C38 is false for `push_back(head,set)` with more than one element: only the last element is stored, in
the first place, and the other places are never written. -/
theorem C38_pushSet_fails : ∃ p : Pool Int, pushSet Pool.empty 7 [1, 2] = .ok p ∧ HL.sizeOf p 0 = .ok 2 ∧
    HL.get p 0 0 = .ok 2 ∧ HL.get p 0 1 = .ub := by
  refine ⟨⟨[some 7, some 2, none], 3, 3, ⟨1, 4, [some 0, some 3, none, none]⟩⟩, ?_⟩
  decide

/-- C38 is false for `total()` of lists made with room for more (`fill_noalloc`): it counts the room. -/
theorem C38_total_room_fails : ∃ p : Pool Int, ofLengths false [7] [3] = .ok p ∧ HL.sizeOf p 0 = .ok 0 ∧
    HL.total p = 3 := by
  refine ⟨⟨[some 7, none, none, none], 4, 4, ⟨1, 2, [some 0, some 1]⟩⟩, ?_⟩
  decide

/-- C37 is false for such lists: the flat form made by `to_tensor` loses the length of a list with room for
more, and contains memory that was never written. -/
theorem C37_toTensor_room_fails : ∃ p : Pool Int, ofLengths false [7] [1] = .ok p ∧ p.sizeOf 0 = .ok 1 ∧
    p.toTensor = .ok [some 1, some 3, some 5, some 7, none] := by
  refine ⟨⟨[some 7, none], 2, 2, ⟨1, 2, [some 0, some 1]⟩⟩, ?_⟩
  decide

/-- Heads 10 and 20, room for 2 and 1 elements, filled out of order, with one append too many. -/
def exOps : List (Op Int) := [.append 1 5, .append 0 3, .append 1 6, .append 0 4, .pushVec 30 [8, 9], .setHead 0 11]

example : HeadSpec.run exOps (([10, 20].zip [2, 1]).map (initRow false)) =
    ([⟨some 11, 2, [some 3, some 4]⟩, ⟨some 20, 1, [some 5]⟩, ⟨some 30, 2, [some 8, some 9]⟩],
      [true, true, false, true, true, true]) := by decide

example : (ofLengths false [10, 20] [2, 1] >>= fun p => exec exOps p >>= fun r => forEach r.1) =
    .ok [(11, [3, 4]), (20, [5]), (30, [8, 9])] := by decide

example : (ofMap [(1, [2, 3]), (4, []), (6, [7])] >>= forEach) = .ok [(1, [2, 3]), (4, []), ((6 : Int), [7])] := by
  decide

end HL

end Cnine
