import Verif.Lemmas.PoolMem

/-!
# Lemmas on reading array pools
-/

namespace Cnine

namespace PoolMem

variable {α : Type} {s : State α} {g : List (Option (PoolRef.Pool α))}

theorem cellHost {h d : Heap α} {o : Obj} {L : List (List α)} (hl : ListsOk h d o (some L)) (hg : o.gpu = false) {i j : Nat} {l : List α} {a : α} (e : L[i]? = some l)
    (ej : l[j]? = some a) : cell h o.arr ((L.take i).flatten.length + j) = .ok a := by
  obtain ⟨k1, k2, k3, k4⟩ := hl
  rw [hg, if_neg (by simp)] at k4
  have hj := (List.getElem?_eq_some_iff.mp ej).1
  have hf := flatten_split L i l e
  obtain ⟨k4, ⟨k5, k6⟩ | ⟨p, k5, k6⟩⟩ := k4
  · have h0 := congrArg List.length hf
    simp only [List.length_append] at h0
    omega
  · obtain ⟨b, b1, ⟨k, b2⟩, b3⟩ := k6
    have hb : b[(L.take i).flatten.length + j]? = some (some a) := by
      rw [← b2, List.getElem?_append_left (by rw [List.length_map, hf]; simp only [List.length_append]; omega), List.getElem?_map, hf, List.append_assoc,
        List.getElem?_append_right (by omega), Nat.add_sub_cancel_left, List.getElem?_append_left hj, ej]
      rfl
    unfold cell
    rw [k5]
    dsimp only
    rw [b1]
    dsimp only
    rw [hb]

theorem eqCells_ok [DecidableEq α] {h : Heap α} {p q : Option Nat} {a b : Nat} {l l' : List α} (h1 : ∀ j x, l[j]? = some x → cell h p (a + j) = .ok x)
    (h2 : ∀ j x, l'[j]? = some x → cell h q (b + j) = .ok x) : ∀ js : List Nat, (∀ j ∈ js, j < l.length ∧ j < l'.length) →
    ∃ r, eqCells h p q a b js = .ok r ∧ (r = true ↔ ∀ j ∈ js, l[j]? = l'[j]?)
  | [], _ => ⟨true, rfl, by simp⟩
  | j :: js, hj => by
    obtain ⟨c1, c2⟩ := hj j List.mem_cons_self
    have e1 := List.getElem?_eq_getElem c1
    have e2 := List.getElem?_eq_getElem c2
    rw [eqCells, h1 _ _ e1, Res.ok_bind, h2 _ _ e2, Res.ok_bind]
    by_cases c : l[j] = l'[j]
    · obtain ⟨r, r1, r2⟩ := eqCells_ok h1 h2 js fun k hk => hj k (List.mem_cons_of_mem _ hk)
      rw [if_neg (by simpa using c)]
      refine ⟨r, r1, r2.trans ?_⟩
      rw [List.forall_mem_cons, e1, e2, c]
      simp
    · rw [if_pos c]
      refine ⟨false, rfl, ?_⟩
      rw [List.forall_mem_cons, e1, e2]
      simp [c]

theorem eqRows_ok [DecidableEq α] {h d : Heap α} {x y : Obj} {L M : List (List α)} (hx : ListsOk h d x (some L)) (hgx : x.gpu = false) (hy : ListsOk h d y (some M))
    (hgy : y.gpu = false) : ∀ is : List Nat, (∀ i ∈ is, i < L.length ∧ i < M.length) → ∃ r, eqRows h x y is = .ok r ∧ (r = true ↔ ∀ i ∈ is, L[i]? = M[i]?)
  | [], _ => ⟨true, rfl, by simp⟩
  | i :: is, hi => by
    obtain ⟨c1, c2⟩ := hi i List.mem_cons_self
    have e1 := List.getElem?_eq_getElem c1
    have e2 := List.getElem?_eq_getElem c2
    rw [eqRows, hx.2.2.1.row e1, Res.ok_bind, hy.2.2.1.row e2, Res.ok_bind]
    dsimp only
    by_cases c : L[i].length = M[i].length
    · rw [if_neg (by simpa using c)]
      obtain ⟨r, r1, r2⟩ := eqCells_ok (fun j a ej => cellHost hx hgx e1 ej) (fun j a ej => cellHost hy hgy e2 ej) (List.range L[i].length) fun j hj => by
        have := List.mem_range.mp hj
        omega
      obtain ⟨r', r1', r2'⟩ := eqRows_ok hx hgx hy hgy is fun k hk => hi k (List.mem_cons_of_mem _ hk)
      rw [r1, Res.ok_bind]
      have hr : r = true ↔ L[i] = M[i] := by
        rw [r2]
        constructor
        · intro hh
          apply List.ext_getElem? 
          intro j
          by_cases cj : j < L[i].length
          · exact hh j (List.mem_range.mpr cj)
          · rw [List.getElem?_eq_none (by omega), List.getElem?_eq_none (by omega)]
        · intro hh j _
          rw [hh]
      cases r with
      | true =>
        rw [if_pos rfl]
        refine ⟨r', r1', r2'.trans ?_⟩
        rw [List.forall_mem_cons, e1, e2, hr.mp rfl]
        simp
      | false =>
        rw [if_neg (by simp)]
        refine ⟨false, rfl, ?_⟩
        rw [List.forall_mem_cons, e1, e2]
        simp only [Option.some.injEq]
        constructor
        · intro z; cases z
        · intro z; exact hr.mpr z.1
    · rw [if_pos c]
      refine ⟨false, rfl, ?_⟩
      rw [List.forall_mem_cons, e1, e2]
      simp only [Option.some.injEq]
      constructor
      · intro z; cases z
      · intro z; exact absurd (congrArg List.length z.1) c

theorem equal_ok [DecidableEq α] (i : Inv s g [] []) {v w : Nat} {L M : List (List α)} {C D : Option (List (List α))} (hv : g[v]? = some (some ⟨some L, false, C⟩))
    (hw : g[w]? = some (some ⟨some M, false, D⟩)) : equal s v w = .ok (decide (L = M)) := by
  obtain ⟨x, hx, rx⟩ := i.look hv
  obtain ⟨y, hy, ry⟩ := i.look hw
  have n1 : x.dir.n = L.length := rx.lists.2.2.1.1
  have n2 : y.dir.n = M.length := ry.lists.2.2.1.1
  rw [equal, look_eq hx, Res.ok_bind, look_eq hy, Res.ok_bind, n1, n2]
  by_cases c : L.length = M.length
  · rw [if_neg (by simpa using c)]
    obtain ⟨r, r1, r2⟩ := eqRows_ok rx.lists rx.gpu ry.lists ry.gpu (List.range L.length) fun j hj => by
      have := List.mem_range.mp hj
      omega
    rw [r1]
    have : r = true ↔ L = M := by
      rw [r2]
      constructor
      · intro hh
        apply List.ext_getElem?
        intro j
        by_cases cj : j < L.length
        · exact hh j (List.mem_range.mpr cj)
        · rw [List.getElem?_eq_none (by omega), List.getElem?_eq_none (by omega)]
      · intro hh j _
        rw [hh]
    by_cases e : L = M
    · rw [this.mpr e, decide_eq_true e]
    · rw [decide_eq_false e]
      cases r with
      | true => exact absurd (this.mp rfl) e
      | false => rfl
  · rw [if_pos c, decide_eq_false fun e => c (congrArg List.length e)]

theorem get_eq (i : Inv s g [] []) {v k : Nat} {L : List (List α)} {C : Option (List (List α))} {l : List α} (hv : g[v]? = some (some ⟨some L, false, C⟩)) (hl : L[k]? = some l) :
    get s v k = .ok l := by
  obtain ⟨o, ho, hr⟩ := i.look hv
  have hn : o.dir.n = L.length := hr.lists.2.2.1.1
  have : k < L.length := (List.getElem?_eq_some_iff.mp hl).1
  rw [get, look_eq ho, Res.ok_bind, hn, decide_eq_true this, Res.assrt_true, Res.ok_bind, hr.lists.2.2.1.row hl, Res.ok_bind]
  dsimp only
  exact readHost hr.lists hr.gpu hl

theorem forM_range {β γ : Type} (f : Nat → Res γ) (h : Nat → γ → β) (L : List γ) (n : Nat) (hn : n ≤ L.length) (hf : ∀ i a, L[i]? = some a → f i = .ok a) (acc : List β) :
    Res.forM (List.range n) acc (fun ls i => do
      let a ← f i
      .ok (ls ++ [h i a])) = .ok (acc ++ (L.take n).zipIdx.map fun e => h e.2 e.1) := by
  induction n with
  | zero => simp [Res.forM_nil]
  | succ n ih =>
    have e := List.getElem?_eq_getElem (l := L) (i := n) (by omega)
    rw [List.range_succ, Res.forM_append, ih (by omega), Res.ok_bind, Res.forM_cons, hf n _ e, Res.ok_bind, Res.ok_bind, Res.forM_nil, List.append_assoc]
    rw [List.take_add_one, e, List.zipIdx_append, List.map_append]
    have : min n L.length = n := by omega
    simp [this]

theorem asVecs_ok (i : Inv s g [] []) {v : Nat} {L : List (List α)} {C : Option (List (List α))} (hv : g[v]? = some (some ⟨some L, false, C⟩)) : asVecs s v = .ok L := by
  obtain ⟨o, ho, hr⟩ := i.look hv
  have hn : o.dir.n = L.length := hr.lists.2.2.1.1
  rw [asVecs, look_eq ho, Res.ok_bind, hn, forM_range (fun k => get s v k) (fun _ l => l) L L.length (Nat.le_refl _) fun k l hl => get_eq i hv hl]
  simp

theorem elem_eq (i : Inv s g [] []) {v k j : Nat} {L : List (List α)} {C : Option (List (List α))} {l : List α} {a : α} (hv : g[v]? = some (some ⟨some L, false, C⟩))
    (hl : L[k]? = some l) (ha : l[j]? = some a) : elem s v k j = .ok a := by
  obtain ⟨o, ho, hr⟩ := i.look hv
  have hn : o.dir.n = L.length := hr.lists.2.2.1.1
  have h1 : k < L.length := (List.getElem?_eq_some_iff.mp hl).1
  have h2 : j < l.length := (List.getElem?_eq_some_iff.mp ha).1
  rw [elem, look_eq ho, Res.ok_bind, hn, decide_eq_true h1, Res.assrt_true, Res.ok_bind, hr.lists.2.2.1.row hl, Res.ok_bind]
  dsimp only
  rw [decide_eq_true h2, Res.assrt_true, Res.ok_bind]
  exact cellHost hr.lists hr.gpu hl ha

theorem sizeOf_eq (i : Inv s g [] []) {v k : Nat} {L : List (List α)} {C : Option (List (List α))} {l : List α} (hv : g[v]? = some (some ⟨some L, false, C⟩))
    (hl : L[k]? = some l) : sizeOf s v k = .ok l.length := by
  obtain ⟨o, ho, hr⟩ := i.look hv
  have hn : o.dir.n = L.length := hr.lists.2.2.1.1
  have h1 : k < L.length := (List.getElem?_eq_some_iff.mp hl).1
  rw [sizeOf, look_eq ho, Res.ok_bind, hn, decide_eq_true h1, Res.assrt_true, Res.ok_bind, hr.lists.2.2.1.row hl]
  rfl

theorem forEach_ok (i : Inv s g [] []) {v : Nat} {L : List (List α)} {C : Option (List (List α))} (hv : g[v]? = some (some ⟨some L, false, C⟩)) :
    forEach s v = .ok (L.zipIdx.flatMap fun e => e.1.map fun a => (e.2, a)) := by
  obtain ⟨o, ho, hr⟩ := i.look hv
  have hn : o.dir.n = L.length := hr.lists.2.2.1.1
  rw [forEach, look_eq ho, Res.ok_bind, hn]
  have key : ∀ n, n ≤ L.length → (Res.forM (List.range n) [] fun ls k => do
      let m ← sizeOf s v k
      Res.forM (List.range m) ls fun ls j => do
        let a ← elem s v k j
        .ok (ls ++ [(k, a)])) = .ok ((L.take n).zipIdx.flatMap fun e => e.1.map fun a => (e.2, a)) := by
    intro n
    induction n with
    | zero => intro _; simp [Res.forM_nil]
    | succ n ih =>
      intro hn'
      have e := List.getElem?_eq_getElem (l := L) (i := n) (by omega)
      rw [List.range_succ, Res.forM_append, ih (by omega), Res.ok_bind, Res.forM_cons, sizeOf_eq i hv e, Res.ok_bind,
        forM_range (fun j => elem s v n j) (fun _ a => (n, a)) L[n] L[n].length (Nat.le_refl _) fun j a ha => elem_eq i hv e ha, Res.ok_bind, Res.forM_nil]
      rw [List.take_add_one, e, List.zipIdx_append, List.flatMap_append]
      have : min n L.length = n := by omega
      simp [this]
      conv_rhs => rw [← List.zipIdx_map_fst 0 L[n], List.map_map]
      rfl
  have := key L.length (Nat.le_refl _)
  rw [List.take_length] at this
  exact this

end PoolMem

end Cnine
