import Verif.Lemmas.Sparse
import Mathlib.Data.List.Induction
import Mathlib.Data.List.Perm.Subperm

/-!
# C47: the sparse matrix is a finite map; C48: its equality; C89: `SparseVec::operator==`; C90: its constructors
-/

namespace Cnine

namespace SpSpec

variable {α : Type _}

/-- What a client does to a sparse matrix; failed calls throw and are caught. -/
inductive Op (α : Type _) where
  | set (i j : Int) (v : α)
  | row (i : Int)

/-- One call, the exception (if any) being caught by the client. -/
def step (x : SpMat α) : Op α → SpMat α
  | .set i j v => match x.set i j v with
    | .ok y => y
    | _ => x
  | .row i => match x.row i with
    | .ok (y, _) => y
    | _ => x

/-- The value of the last accepted setting of (i,j). -/
def last (n m : Int) (ops : List (Op α)) (i j : Int) : Option α :=
  ops.reverse.findSome? fun
    | .set a b v => if a < n ∧ b < m ∧ a = i ∧ b = j then some v else none
    | .row _ => none

end SpSpec

open SpSpec SpMat

variable {α : Type _}

theorem SpSpec.last_snoc (n m : Int) (ops : List (Op α)) (o : Op α) (i j : Int) :
    last n m (ops ++ [o]) i j = ((match o with
      | .set a b v => if a < n ∧ b < m ∧ a = i ∧ b = j then some v else none
      | .row _ => none).or (last n m ops i j)) := by
  unfold last
  rw [List.reverse_append, List.reverse_singleton, List.singleton_append, List.findSome?_cons]
  cases o with
  | set a b v =>
    dsimp only
    by_cases c : a < n ∧ b < m ∧ a = i ∧ b = j
    · rw [if_pos c]; rfl
    · rw [if_neg c]; rfl
  | row a => rfl

theorem SpSpec.run_ok (n m : Int) (ops : List (Op α)) : (ops.foldl step (new n m)).WF ∧
    (ops.foldl step (new n m)).n = n ∧ (ops.foldl step (new n m)).m = m ∧
    ∀ i j, (ops.foldl step (new n m)).stored i j = last n m ops i j := by
  induction ops using List.reverseRecOn with
  | nil => exact ⟨wf_new n m, rfl, rfl, fun _ _ => rfl⟩
  | append_singleton ops o ih =>
    obtain ⟨h1, h2, h3, h4⟩ := ih
    rw [List.foldl_append, List.foldl_cons, List.foldl_nil]
    generalize ops.foldl step (new n m) = x at h1 h2 h3 h4 ⊢
    cases o with
    | set a b v =>
      by_cases c : a < n ∧ b < m
      · obtain ⟨y, e1, e2, e3, e4, e5⟩ := set_ok h1 (i := a) (j := b) (by rw [h2]; exact c.1) (by rw [h3]; exact c.2) v
        have : step x (.set a b v) = y := by unfold step; dsimp only; rw [e1]
        rw [this]
        refine ⟨e2, by rw [e3, h2], by rw [e4, h3], fun i j => ?_⟩
        rw [e5, last_snoc]
        dsimp only
        by_cases d : i = a ∧ j = b
        · rw [if_pos d, if_pos ⟨c.1, c.2, d.1.symm, d.2.symm⟩]; rfl
        · rw [if_neg d, if_neg (fun h => d ⟨h.2.2.1.symm, h.2.2.2.symm⟩), h4]; rfl
      · have : step x (.set a b v) = x := by
          unfold step; dsimp only; rw [set_throw (by rw [h2, h3]; exact c) v]
        rw [this]
        refine ⟨h1, h2, h3, fun i j => ?_⟩
        rw [h4, last_snoc]
        dsimp only
        rw [if_neg (fun h => c ⟨h.1, h.2.1⟩)]; rfl
    | row a =>
      by_cases c : a < n
      · obtain ⟨y, r, e1, e2, e3, e4, e5, _⟩ := row_ok h1 (i := a) (by rw [h2]; exact c)
        have : step x (.row a) = y := by unfold step; dsimp only; rw [e1]
        rw [this]
        refine ⟨e2, by rw [e3, h2], by rw [e4, h3], fun i j => ?_⟩
        rw [e5, last_snoc, h4]; rfl
      · have : step x (.row a) = x := by
          unfold step SpMat.row
          dsimp only
          rw [h2, Pool.assrt_neg c]; rfl
        rw [this]
        refine ⟨h1, h2, h3, fun i j => ?_⟩
        rw [h4, last_snoc]; rfl

theorem SpMat.get_eq [Zero α] {x : SpMat α} {i : Int} (j : Int) (hi : i < x.n) : x.get i j = .ok ((x.stored i j).getD 0) := by
  unfold get rowp stored
  rw [Pool.assrt_pos hi]
  cases OMap.find? i x.lists <;> rfl

theorem SpMat.get_throw [Zero α] {x : SpMat α} {i : Int} (j : Int) (hi : ¬ i < x.n) : x.get i j = .throw := by
  unfold get rowp
  rw [Pool.assrt_neg hi]; rfl

/-- **C47** Over every history of calls, `operator()(i,j)` returns the value of the last accepted setting of (i,j), or 0;
it throws for `i≥n`. -/
theorem C47_get [Zero α] (n m : Int) (ops : List (Op α)) (i j : Int) :
    (ops.foldl step (new n m)).get i j = if i < n then .ok ((last n m ops i j).getD 0) else .throw := by
  obtain ⟨h1, h2, h3, h4⟩ := run_ok n m ops
  by_cases c : i < n
  · rw [if_pos c, get_eq j (by rw [h2]; exact c), h4]
  · rw [if_neg c, get_throw j (by rw [h2]; exact c)]

example : (([.set 0 1 5, .set 7 7 3, .row 1, .set 0 1 6, .set 2 2 4] : List (Op Int)).foldl step (new 3 3)).get 0 1 = .ok 6 := by
  decide

/-- **C47** A call of `set` or `row` is accepted exactly if the indices are below the shape, in every reachable state. -/
theorem C47_accepts (n m : Int) (ops : List (Op α)) (i j : Int) (v : α) :
    ((∃ y, (ops.foldl step (new n m)).set i j v = .ok y) ↔ i < n ∧ j < m) ∧
    ((∃ y, (ops.foldl step (new n m)).row i = .ok y) ↔ i < n) ∧
    (ops.foldl step (new n m)).set i j v ≠ .ub ∧ (ops.foldl step (new n m)).row i ≠ .ub := by
  obtain ⟨h1, h2, h3, h4⟩ := run_ok n m ops
  generalize ops.foldl step (new n m) = x at h1 h2 h3 h4 ⊢
  by_cases c : i < n
  · obtain ⟨y, r, e1, _⟩ := row_ok h1 (i := i) (by rw [h2]; exact c)
    by_cases d : j < m
    · obtain ⟨z, f1, _⟩ := set_ok h1 (i := i) (j := j) (by rw [h2]; exact c) (by rw [h3]; exact d) v
      simp [e1, f1, c, d]
    · rw [set_throw (by rw [h2, h3]; exact fun h => d h.2) v]
      simp [e1, c, d]
  · have : x.row i = .throw := by
      unfold SpMat.row
      rw [h2, Pool.assrt_neg c]; rfl
    rw [set_throw (by rw [h2, h3]; exact fun h => c h.1) v, this]
    simp [c]

example : (new 3 3 : SpMat Int).set 3 0 1 = .throw ∧ ((new 3 3 : SpMat Int).row 2) = .ok (⟨3, 3, [(2, [])]⟩, []) := by
  decide

/-- **C47** The visitor lists the stored cells in strictly increasing lexicographic order, hence each once, with the values
set last. -/
theorem C47_visitor (n m : Int) (ops : List (Op α)) :
    (ops.foldl step (new n m)).entries.Pairwise (fun a b => a.1 < b.1 ∨ (a.1 = b.1 ∧ a.2.1 < b.2.1)) ∧
    (∀ i j v, (i, j, v) ∈ (ops.foldl step (new n m)).entries ↔ last n m ops i j = some v) ∧
    (ops.foldl step (new n m)).size = (ops.foldl step (new n m)).entries.length := by
  obtain ⟨h1, h2, h3, h4⟩ := run_ok n m ops
  refine ⟨entries_sorted h1, fun i j v => ?_, size_eq _⟩
  rw [mem_entries h1, h4]

example : (([.set 2 1 5, .set 0 1 6, .set 0 0 4, .row 1, .set 2 1 7] : List (Op Int)).foldl step (new 3 3)).entries =
    [(0, 0, 4), (0, 1, 6), (2, 1, 7)] := by decide

theorem SpMat.transp_ok {x : SpMat α} (h : x.WF) : ∃ y, x.transp = .ok y ∧ y.WF ∧ y.n = x.m ∧ y.m = x.n ∧
    ∀ i j, y.stored i j = x.stored j i := by
  obtain ⟨y, h1, h2, h3, h4, h5⟩ := setAll_ok (x.entries.map fun e => (e.2.1, e.1, e.2.2)) (wf_new x.m x.n) (by
    intro e he
    obtain ⟨⟨i, j, v⟩, hp, rfl⟩ := List.mem_map.mp he
    obtain ⟨p, hp1, hp2⟩ := List.mem_flatMap.mp hp
    obtain ⟨q, hq, e⟩ := List.mem_map.mp hp2
    cases e
    exact ⟨h.clt p hp1 q hq, h.rlt p hp1⟩)
  refine ⟨y, h1, h2, h3, h4, fun i j => ?_⟩
  rw [h5]
  have h0 : (new x.m x.n : SpMat α).stored i j = none := rfl
  rw [h0, Option.or_none]
  have hp : (x.entries.map fun (e : Int × Int × α) => (e.2.1, e.1, e.2.2)).Pairwise
      fun a b => (a.1, a.2.1) ≠ (b.1, b.2.1) := by
    rw [List.pairwise_map]
    refine (entries_sorted h).imp fun {a b} hab e => hab.ne ?_
    injection e with e1 e2
    dsimp only at e1 e2
    rw [e1, e2]
  apply Option.ext
  intro v
  rw [lastOf_iff hp, ← mem_entries h, List.mem_map]
  constructor
  · rintro ⟨⟨a, b, c⟩, h1, h2⟩
    cases h2; exact h1
  · intro h1; exact ⟨_, h1, rfl⟩

/-- **C47** `transp()` succeeds in every reachable state, has the shape and the indices swapped, and applied twice gives
the stored cells back. -/
theorem C47_transp [Zero α] (n m : Int) (ops : List (Op α)) :
    ∃ y z, (ops.foldl step (new n m)).transp = .ok y ∧ y.transp = .ok z ∧ y.n = m ∧ y.m = n ∧ z.n = n ∧ z.m = m ∧
      (∀ i j, i < n → j < m → y.get j i = (ops.foldl step (new n m)).get i j) ∧
      (∀ i j v, (j, i, v) ∈ y.entries ↔ (i, j, v) ∈ (ops.foldl step (new n m)).entries) ∧
      z.entries = (ops.foldl step (new n m)).entries := by
  obtain ⟨h1, h2, h3, h4⟩ := run_ok n m ops
  generalize ops.foldl step (new n m) = x at h1 h2 h3 h4 ⊢
  obtain ⟨y, e1, e2, e3, e4, e5⟩ := transp_ok h1
  obtain ⟨z, f1, f2, f3, f4, f5⟩ := transp_ok e2
  refine ⟨y, z, e1, f1, by rw [e3, h3], by rw [e4, h2], by rw [f3, e4, h2], by rw [f4, e3, h3], ?_, ?_, ?_⟩
  · intro i j hi hj
    rw [get_eq _ (by rw [e3, h3]; exact hj), get_eq _ (by rw [h2]; exact hi), e5]
  · intro i j v
    rw [mem_entries e2, mem_entries h1, e5]
  · apply before_unique (entries_sorted f2) (entries_sorted h1)
    rintro ⟨i, j, v⟩
    rw [mem_entries f2, mem_entries h1, f5, e5]

example : (([.set 2 1 5, .set 0 1 6, .set 0 0 4] : List (Op Int)).foldl step (new 3 2)).transp =
    .ok ⟨2, 3, [(0, [(0, 4)]), (1, [(0, 6), (2, 5)])]⟩ := by decide

/-- **C47** If no negative index was accepted, `dense()` is the row-major tensor of the values of `operator()`. -/
theorem C47_dense [Zero α] (n m : Nat) (ops : List (Op α))
    (hneg : ∀ i j, (last n m ops i j).isSome → 0 ≤ i ∧ 0 ≤ j) :
    ∃ a, (ops.foldl step (new n m)).dense = .ok a ∧ a.length = n * m ∧
      ∀ i j : Nat, i < n → j < m → ∃ v, a[m * i + j]? = some (some v) ∧ (ops.foldl step (new n m)).get i j = .ok v := by
  obtain ⟨h1, h2, h3, h4⟩ := run_ok n m ops
  generalize ops.foldl step (new n m) = x at h1 h2 h3 h4 ⊢
  unfold dense
  rw [h2, h3]
  have hz : (zeros (n : Int) m : Arr α) = List.replicate (n * m) (some 0) := by
    unfold zeros
    congr 1
  rw [hz]
  obtain ⟨b, g1, g2, g3⟩ := store_ok n m x.entries (List.replicate (n * m) (some 0)) (by simp) (by
    rintro ⟨i, j, v⟩ he
    have := (mem_entries h1).mp he
    rw [h4] at this
    have h0 := hneg i j (by rw [this]; rfl)
    obtain ⟨p, hp1, hp2⟩ := List.mem_flatMap.mp he
    obtain ⟨q, hq, e⟩ := List.mem_map.mp hp2
    cases e
    have := h1.rlt p hp1
    have := h1.clt p hp1 q hq
    dsimp only
    omega)
  refine ⟨b, g1, g2, fun i j hi hj => ⟨(x.stored i j).getD 0, ?_, get_eq _ (by rw [h2]; omega)⟩⟩
  rw [g3 i j hi hj]
  have hlt : m * i + j < n * m := by
    calc m * i + j < m * i + m := by omega
      _ = m * (i + 1) := by rw [Nat.mul_succ]
      _ ≤ m * n := Nat.mul_le_mul_left _ hi
      _ = n * m := Nat.mul_comm _ _
  have hls : lastOf x.entries i j = x.stored i j := by
    apply Option.ext
    intro v
    rw [lastOf_iff ((entries_sorted h1).imp fun hab => hab.ne), ← mem_entries h1]
  rw [hls, List.getElem?_replicate, if_pos hlt]
  cases x.stored i j <;> rfl

example : (([.set 1 1 5, .set 0 1 6, .row 0] : List (Op Int)).foldl step (new 2 2)).dense =
    .ok [some 0, some 6, some 0, some 5] := by decide

/-! ## C91: negative indices -/

/-- **C91** A negative index is accepted; `operator()` finds it, but `dense()` then stores outside the tensor, or into the
cell of another entry. -/
theorem C91_negative_fails : ∃ (x y : SpMat Int), (new 2 2).set (-1) 0 7 = .ok x ∧ x.get (-1) 0 = .ok 7 ∧ x.dense = .ub ∧
    (new 2 2).set 1 (-1) 7 = .ok y ∧ y.dense = .ok [some 0, some 7, some 0, some 0] ∧ y.get 0 1 = .ok 0 := by
  exact ⟨⟨2, 2, [(-1, [(0, 7)])]⟩, ⟨2, 2, [(1, [(-1, 7)])]⟩, by decide, by decide, by decide, by decide, by decide, by decide⟩

/-! ## C48: equality -/

variable [DecidableEq α]

theorem SpMat.eq_iff {x y : SpMat α} (hx : x.WF) (hy : y.WF) : x.eq y = true ↔ x = y := by
  unfold SpMat.eq
  simp only [Bool.and_eq_true, decide_eq_true_eq, List.all_eq_true]
  constructor
  · rintro ⟨⟨⟨h1, h2⟩, h3⟩, h4⟩
    have hsub : x.lists ⊆ y.lists := by
      intro p hp
      exact OMap.mem_of_find? (h4 p hp)
    have hl : x.lists = y.lists := by
      apply OMap.ext hx.rows hy.rows
      intro k
      have hperm : x.lists.Perm y.lists :=
        (List.subperm_of_subset hx.rows.nodup' hsub).perm_of_length_le (by omega)
      apply Option.ext
      intro v
      rw [← OMap.mem_iff hx.rows, ← OMap.mem_iff hy.rows]
      exact hperm.mem_iff
    obtain ⟨n, m, l⟩ := x
    obtain ⟨n', m', l'⟩ := y
    simp only at h1 h2 hl
    rw [h1, h2, hl]
  · rintro rfl
    refine ⟨⟨⟨rfl, rfl⟩, rfl⟩, fun p hp => ?_⟩
    exact OMap.find?_of_mem hx.rows hp

/-- **C48** Equality of sparse matrices (in all reachable states) is an equivalence and implies equal shapes, equal values
and equal stored cells. -/
theorem C48_eq [Zero α] (n m n' m' n'' m'' : Int) (ops ops' ops'' : List (Op α)) (x y z : SpMat α)
    (hx : x = ops.foldl step (new n m)) (hy : y = ops'.foldl step (new n' m')) (hz : z = ops''.foldl step (new n'' m'')) :
    x.eq x = true ∧ (x.eq y = true → y.eq x = true) ∧ (x.eq y = true → y.eq z = true → x.eq z = true) ∧
    (x.eq y = true → n = n' ∧ m = m' ∧ x.entries = y.entries ∧ ∀ i j, x.get i j = y.get i j) := by
  obtain ⟨h1, h2, h3, _⟩ := run_ok n m ops
  obtain ⟨g1, g2, g3, _⟩ := run_ok n' m' ops'
  obtain ⟨f1, f2, f3, _⟩ := run_ok n'' m'' ops''
  rw [← hx] at h1 h2 h3
  rw [← hy] at g1 g2 g3
  rw [← hz] at f1 f2 f3
  rw [eq_iff h1 h1, eq_iff h1 g1, eq_iff g1 h1, eq_iff g1 f1, eq_iff h1 f1]
  refine ⟨rfl, Eq.symm, Eq.trans, ?_⟩
  rintro rfl
  exact ⟨by rw [← h2, g2], by rw [← h3, g3], rfl, fun _ _ => rfl⟩

/-- **C48** Two matrices with the same shape and the same stored cells are equal, provided `row(i)` created no empty rows. -/
theorem C48_complete (n m : Int) (ops ops' : List (Op α)) (hr : ∀ o ∈ ops ++ ops', ∀ i, o ≠ .row i)
    (h : ∀ i j, last n m ops i j = last n m ops' i j) :
    (ops.foldl step (new n m)).eq (ops'.foldl step (new n m)) = true := by
  have key : ∀ l : List (Op α), (∀ o ∈ l, ∀ i, o ≠ .row i) → ∀ p ∈ (l.foldl step (new n m)).lists, p.2 ≠ [] := by
    intro l
    induction l using List.reverseRecOn with
    | nil => intro _ p hp; simp [new] at hp
    | append_singleton l o ih =>
      intro hl
      have ih := ih fun o ho => hl o (by simp [ho])
      rw [List.foldl_append, List.foldl_cons, List.foldl_nil]
      generalize l.foldl step (new n m) = x at ih ⊢
      cases o with
      | row i => exact absurd rfl (hl _ (by simp) i)
      | set a b v =>
        unfold step SpMat.set
        dsimp only
        by_cases c : a < x.n
        · by_cases d : b < x.m
          · rw [Pool.assrt_pos c, Pool.assrt_pos d]
            intro p hp
            rcases OMap.mem_set_key hp with e | e
            · subst e
              intro he
              have := OMap.find?_set_self (m := (OMap.find? a x.lists).getD []) b v
              dsimp only at he
              rw [he] at this
              cases this
            · exact ih p e
          · rw [Pool.assrt_pos c, Pool.assrt_neg d]; exact ih
        · rw [Pool.assrt_neg c]; exact ih
  have k1 := key ops fun o ho => hr o (by simp [ho])
  have k2 := key ops' fun o ho => hr o (by simp [ho])
  obtain ⟨h1, h2, h3, h4⟩ := run_ok n m ops
  obtain ⟨g1, g2, g3, g4⟩ := run_ok n m ops'
  rw [eq_iff h1 g1]
  generalize ops.foldl step (new n m) = x at *
  generalize ops'.foldl step (new n m) = y at *
  have hs : ∀ i j, x.stored i j = y.stored i j := fun i j => by rw [h4, g4, h]
  have half : ∀ {x y : SpMat α}, x.WF → y.WF → (∀ p ∈ x.lists, p.2 ≠ []) → (∀ i j, x.stored i j = y.stored i j) →
      ∀ i r, OMap.find? i x.lists = some r → OMap.find? i y.lists = some r := by
    intro x y hx hy hne hs i r hr
    have hr' := OMap.mem_of_find? hr
    cases hf : OMap.find? i y.lists with
    | none =>
      exfalso
      have hn := hne _ hr'
      cases r with
      | nil => exact hn rfl
      | cons q r =>
        have := hs i q.1
        unfold stored at this
        rw [hf, hr] at this
        simp [OMap.find?] at this
    | some r' =>
      congr 1
      apply OMap.ext (hy.cols _ (OMap.mem_of_find? hf)) (hx.cols _ hr')
      intro j
      have := hs i j
      unfold stored at this
      rw [hf, hr] at this
      exact this.symm
  have hl : x.lists = y.lists := by
    apply OMap.ext h1.rows g1.rows
    intro i
    apply Option.ext
    intro r
    exact ⟨half h1 g1 k1 hs i r, half g1 h1 k2 (fun i j => (hs i j).symm) i r⟩
  obtain ⟨n, m, l⟩ := x
  obtain ⟨n', m', l'⟩ := y
  simp only at h2 h3 g2 g3 hl
  rw [h2, h3, g2, g3, hl]

example : (([.set 1 1 5, .set 0 1 6] : List (Op Int)).foldl step (new 2 2)).eq
    (([.set 0 1 2, .set 0 1 6, .set 1 1 5] : List (Op Int)).foldl step (new 2 2)) = true := by decide

/-! ## C92: equality is not equality of values -/

/-- **C92** Matrices with the same values can be unequal: a stored zero, or an empty row left behind by reading `row(i)` of
a const matrix, makes the difference. -/
theorem C92_eq_values_fails : ∃ (x y : SpMat Int) (r : SpVec Int), (new 2 2).set 0 0 0 = .ok x ∧
    (∀ i j, x.get i j = (new 2 2 : SpMat Int).get i j) ∧ x.eq (new 2 2) = false ∧
    (new 2 2 : SpMat Int).row 0 = .ok (y, r) ∧ (∀ i j, y.get i j = (new 2 2 : SpMat Int).get i j) ∧
    y.eq (new 2 2) = false := by
  refine ⟨⟨2, 2, [(0, [(0, 0)])]⟩, ⟨2, 2, [(0, [])]⟩, [], by decide, ?_, by decide, by decide, ?_,
    by decide⟩
  · intro i j
    by_cases c : i < 2
    · rw [get_eq j (by exact c), get_eq j (by exact c)]
      by_cases d : i = 0
      · by_cases e : j = 0 <;> simp [stored, OMap.find?, new, d, e]
      · simp [stored, OMap.find?, new, d]
    · rw [get_throw j (by exact c), get_throw j (by exact c)]
  · intro i j
    by_cases c : i < 2
    · rw [get_eq j (by exact c), get_eq j (by exact c)]
      by_cases d : i = 0 <;> simp [stored, OMap.find?, new, d]
    · rw [get_throw j (by exact c), get_throw j (by exact c)]

/-! ## C89: `SparseVec::operator==` -/

/-- **C89** `x==y` of vectors says that every cell stored in `x` is stored in `y` with the same value. -/
theorem C89_vec_partial (x y : SpVec α) (hx : OMap.Sorted x) :
    SpVec.eq x y = true ↔ ∀ j v, OMap.find? j x = some v → OMap.find? j y = some v := by
  unfold SpVec.eq
  simp only [List.all_eq_true, decide_eq_true_eq]
  constructor
  · intro h j v hj
    exact h _ (OMap.mem_of_find? hj)
  · intro h p hp
    exact h _ _ (OMap.find?_of_mem hx hp)

example : SpVec.eq ([(1, 5)] : SpVec Int) [(0, 3), (1, 5)] = true := by decide

/-- **C89** It is not symmetric and does not mean equal values. -/
theorem C89_vec_fails : ∃ x y : SpVec Int, OMap.Sorted x ∧ OMap.Sorted y ∧ SpVec.eq x y = true ∧ SpVec.eq y x = false ∧
    (OMap.find? 0 x).getD 0 ≠ (OMap.find? 0 y).getD 0 :=
  ⟨[(1, 5)], [(0, 3), (1, 5)], by simp [OMap.Sorted], by simp [OMap.Sorted], by decide, by decide, by decide⟩

/-! ## C90: constructors -/

omit [DecidableEq α] in
/-- **C90** `from_list` sizes the matrix by the largest index itself, so a list containing a nonnegative index always
throws: no matrix can be built from a non-empty list of nonnegative index pairs. -/
theorem C90_fromList_fails (one : α) (M : List (Int × Int)) (h : ∃ p ∈ M, 0 ≤ p.1 ∨ 0 ≤ p.2) :
    fromList one M = .throw := by
  have hmax : ∀ (f : Int × Int → Int) (l : List (Int × Int)) (a : Int),
      a ≤ l.foldl (fun n p => max (f p) n) a ∧ (∀ p ∈ l, f p ≤ l.foldl (fun n p => max (f p) n) a) ∧
      (l.foldl (fun n p => max (f p) n) a = a ∨ ∃ p ∈ l, f p = l.foldl (fun n p => max (f p) n) a) := by
    intro f l
    induction l with
    | nil => intro a; simp
    | cons q l ih =>
      intro a
      rw [List.foldl_cons]
      obtain ⟨h1, h2, h3⟩ := ih (max (f q) a)
      have i1 : f q ≤ max (f q) a := by omega
      have i2 : a ≤ max (f q) a := by omega
      refine ⟨by omega, ?_, ?_⟩
      · intro p hp
        rcases List.mem_cons.mp hp with e | e
        · subst e; omega
        · exact h2 p e
      · rcases h3 with h3 | ⟨p, hp, e⟩
        · rw [h3]
          by_cases c : f q ≤ a
          · left; omega
          · right; exact ⟨q, by simp, by omega⟩
        · right; exact ⟨p, List.mem_cons_of_mem _ hp, e⟩
  unfold fromList
  apply setAll_throw _ (wf_new _ _)
  intro hall
  obtain ⟨p, hp, hpos⟩ := h
  have hin : ∀ q ∈ M, q.1 < M.foldl (fun n p => max p.1 n) 0 ∧ q.2 < M.foldl (fun m p => max p.2 m) 0 := by
    intro q hq
    exact hall (q.1, q.2, one) (List.mem_map.mpr ⟨q, hq, rfl⟩)
  obtain ⟨a1, a2, a3⟩ := hmax Prod.fst M 0
  obtain ⟨b1, b2, b3⟩ := hmax Prod.snd M 0
  have := hin p hp
  rcases a3 with a3 | ⟨q, hq, a3⟩
  · rcases b3 with b3 | ⟨q, hq, b3⟩
    · omega
    · have := (hin q hq).2; omega
  · have := (hin q hq).1; omega

example : fromList (1 : Int) [(0, 1), (1, 0)] = .throw := by decide

omit [DecidableEq α] in
theorem SpMat.mem_grid {n m i j : Nat} : (i, j) ∈ grid n m ↔ i < n ∧ j < m := by
  unfold grid
  simp [List.mem_flatMap]

omit [DecidableEq α] in
/-- **C90** The constructor from a dense matrix stores exactly the cells kept (`v!=0`, resp. `v>0` in `from_matrix`) and
reads back their values. -/
theorem C90_ofDense_partial [Zero α] (keep : α → Bool) (n m : Nat) (d : Nat → Nat → α) :
    ∃ y, ofDense keep n m d = .ok y ∧ y.n = n ∧ y.m = m ∧
      (∀ i j : Nat, i < n → j < m → y.get i j = .ok (if keep (d i j) then d i j else 0)) ∧
      ∀ i j v, (i, j, v) ∈ y.entries ↔ ∃ a b : Nat, a < n ∧ b < m ∧ keep (d a b) = true ∧ i = a ∧ j = b ∧ v = d a b := by
  obtain ⟨y, h1, h2, h3, h4, h5⟩ := setAll_ok
    (((grid n m).filter fun p => keep (d p.1 p.2)).map fun (p : Nat × Nat) => ((p.1 : Int), (p.2 : Int), d p.1 p.2))
    (wf_new n m) (by
      intro e he
      obtain ⟨p, hp, rfl⟩ := List.mem_map.mp he
      have := mem_grid.mp (List.mem_of_mem_filter hp)
      simp only [new]
      omega)
  have hnd : (grid n m).Nodup := by
    unfold grid
    rw [List.nodup_flatMap]
    refine ⟨fun i _ => ?_, ?_⟩
    · exact List.Nodup.map (fun a b h => by injection h) List.nodup_range
    · refine List.Pairwise.imp ?_ (List.nodup_range (n := n))
      intro a b hab
      rw [Function.onFun, List.disjoint_left]
      intro q hq hq'
      obtain ⟨_, _, rfl⟩ := List.mem_map.mp hq
      obtain ⟨_, _, e⟩ := List.mem_map.mp hq'
      injection e with e _
      exact hab e.symm
  have hp : (((grid n m).filter fun p => keep (d p.1 p.2)).map fun (p : Nat × Nat) =>
      ((p.1 : Int), (p.2 : Int), d p.1 p.2)).Pairwise fun a b => (a.1, a.2.1) ≠ (b.1, b.2.1) := by
    rw [List.pairwise_map]
    refine (List.Pairwise.sublist List.filter_sublist hnd).imp ?_
    rintro ⟨a, b⟩ ⟨a', b'⟩ hab e
    injection e with e1 e2
    dsimp only at e1 e2
    exact hab (by rw [Int.ofNat_inj.mp e1, Int.ofNat_inj.mp e2])
  have hst : ∀ i j v, y.stored i j = some v ↔
      ∃ a b : Nat, a < n ∧ b < m ∧ keep (d a b) = true ∧ i = a ∧ j = b ∧ v = d a b := by
    intro i j v
    rw [h5]
    have h0 : (new (n : Int) m : SpMat α).stored i j = none := rfl
    rw [h0, Option.or_none, lastOf_iff hp, List.mem_map]
    constructor
    · rintro ⟨⟨a, b⟩, hm, e⟩
      cases e
      obtain ⟨hg, hk⟩ := List.mem_filter.mp hm
      have := mem_grid.mp hg
      exact ⟨a, b, this.1, this.2, hk, rfl, rfl, rfl⟩
    · rintro ⟨a, b, ha, hb, hk, rfl, rfl, rfl⟩
      exact ⟨(a, b), List.mem_filter.mpr ⟨mem_grid.mpr ⟨ha, hb⟩, hk⟩, rfl⟩
  refine ⟨y, h1, h3, h4, ?_, fun i j v => by rw [mem_entries h2, hst]⟩
  intro i j hi hj
  rw [get_eq _ (by rw [h3]; simp only [new]; omega)]
  by_cases c : keep (d i j) = true
  · rw [(hst i j (d i j)).mpr ⟨i, j, hi, hj, c, rfl, rfl, rfl⟩, if_pos c]; rfl
  · rw [if_neg c]
    cases hs : y.stored i j with
    | none => rfl
    | some v =>
      obtain ⟨a, b, _, _, hk, ea, eb, _⟩ := (hst i j v).mp hs
      rw [Int.ofNat_inj.mp ea, Int.ofNat_inj.mp eb] at c
      exact absurd hk c

example : ofDense (fun v : Int => v != 0) 2 2 (fun i j => if i = j then 0 else 3) =
    .ok ⟨2, 2, [(0, [(1, 3)]), (1, [(0, 3)])]⟩ := by decide

end Cnine
