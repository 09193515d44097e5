import Verif.Model.TreeMem

/-! # Properties of the memory of labelled trees (combinatorial/labeled_tree.hpp) -/

namespace Cnine.TM

variable {α : Type _}

/-- Trees in a row: the label of the first, its children, the trees after it. -/
inductive Forest (α : Type _)
  | nil
  | cons (l : α) (c s : Forest α)

namespace Forest

/-- One more than the number of steps needed to walk through. -/
def size : Forest α → Nat
  | nil => 1
  | cons _ c s => c.size + s.size + 1

end Forest

/-- The nodes at `ps` are the roots of the trees `f`, whose nodes are at the addresses `a`, in the order of a walk. -/
def Rep (h : Heap α) : List Nat → Forest α → List Nat → Prop
  | ps, .nil, a => ps = [] ∧ a = []
  | ps, .cons l c s, a => ∃ p qs ch a1 a2, ps = p :: qs ∧ p < h.next ∧ h.obj p = some (l, ch) ∧ Rep h ch c a1 ∧ Rep h qs s a2 ∧
      a = p :: (a1 ++ a2)

/-- Only the nodes of the trees matter. -/
theorem Rep.frame {h h' : Heap α} (hn : h.next ≤ h'.next) : ∀ {f : Forest α} {ps a : List Nat}, Rep h ps f a →
    (∀ p, p ∈ a → h'.obj p = h.obj p) → Rep h' ps f a
  | .nil, _, _, H, _ => H
  | .cons _ _ _, _, _, ⟨p, qs, ch, a1, a2, e1, e2, e3, e4, e5, e6⟩, k => by
    subst e6
    exact ⟨p, qs, ch, a1, a2, e1, Nat.lt_of_lt_of_le e2 hn, (k p List.mem_cons_self).trans e3,
      e4.frame hn fun q hq => k q (List.mem_cons_of_mem _ (List.mem_append_left _ hq)),
      e5.frame hn fun q hq => k q (List.mem_cons_of_mem _ (List.mem_append_right _ hq)), rfl⟩

theorem Rep.lt {h : Heap α} : ∀ {f : Forest α} {ps a : List Nat}, Rep h ps f a → ∀ p, p ∈ a → p < h.next
  | .nil, _, _, ⟨_, e⟩, p, hp => by subst e; simp at hp
  | .cons _ _ _, _, _, ⟨p, qs, ch, a1, a2, e1, e2, e3, e4, e5, e6⟩, q, hq => by
    subst e6
    rcases List.mem_cons.mp hq with rfl | hq
    · exact e2
    · rcases List.mem_append.mp hq with hq | hq
      · exact e4.lt q hq
      · exact e5.lt q hq

/-! ### C654: copies -/

/-- C654: the copy is made of new nodes, all different, with the same labels in the same shape; nothing that was there changes. -/
theorem C654_copy : ∀ (f : Forest α) (fuel : Nat) (h : Heap α) (ps a : List Nat), f.size ≤ fuel → Rep h ps f a →
    ∃ h' qs b, copy fuel h ps = .ok (h', qs) ∧ Rep h' qs f b ∧ b.Nodup ∧ (∀ p, p ∈ b → h.next ≤ p ∧ p < h'.next) ∧
      h.next ≤ h'.next ∧ ∀ p, p < h.next → h'.obj p = h.obj p
  | .nil, fuel, h, ps, a, hf, ⟨e1, _⟩ => by
    subst e1
    cases fuel with
    | zero => simp [Forest.size] at hf
    | succ fuel => exact ⟨h, [], [], rfl, ⟨rfl, rfl⟩, List.nodup_nil, by simp, Nat.le_refl _, fun _ _ => rfl⟩
  | .cons l c s, fuel, h, ps, a, hf, ⟨p, qs, ch, a1, a2, e1, e2, e3, e4, e5, _⟩ => by
    subst e1
    cases fuel with
    | zero => simp [Forest.size] at hf
    | succ fuel =>
      have hf : c.size + s.size + 1 ≤ fuel + 1 := hf
      obtain ⟨h1, cs, b1, k1, k2, k3, k4, k5, k6⟩ := C654_copy c fuel h ch a1 (by omega) e4
      have n2 : (alloc h1 (l, cs)).next = h1.next + 1 := rfl
      have o2 : ∀ q, q < h1.next → (alloc h1 (l, cs)).obj q = h1.obj q := fun q hq => if_neg (Nat.ne_of_lt hq)
      have r5 : Rep (alloc h1 (l, cs)) qs s a2 := e5.frame (by omega) fun q hq => by
        have := e5.lt q hq
        rw [o2 q (by omega), k6 q this]
      obtain ⟨h3, ss, b2, m1, m2, m3, m4, m5, m6⟩ := C654_copy s fuel _ qs a2 (by omega) r5
      have o3 : ∀ q, q < h1.next → h3.obj q = h1.obj q := fun q hq => (m6 q (by omega)).trans (o2 q hq)
      refine ⟨h3, h1.next :: ss, h1.next :: (b1 ++ b2), ?_, ?_, ?_, ?_, by omega, ?_⟩
      · unfold copy
        simp only [e3]
        rw [k1, Res.ok_bind]
        simp only []
        rw [m1, Res.ok_bind]
      · refine ⟨h1.next, ss, cs, b1, b2, rfl, by omega, ?_, ?_, m2, rfl⟩
        · rw [m6 _ (by omega)]; exact if_pos rfl
        · exact k2.frame (by omega) fun q hq => o3 q (k4 q hq).2
      · refine List.nodup_cons.mpr ⟨fun hm => ?_, List.nodup_append.mpr ⟨k3, m3, fun x hx y hy e => ?_⟩⟩
        · rcases List.mem_append.mp hm with hm | hm
          · have := (k4 _ hm).2; omega
          · have := (m4 _ hm).1; omega
        · have := (k4 _ hx).2
          have := (m4 _ hy).1
          omega
      · intro q hq
        rcases List.mem_cons.mp hq with rfl | hq
        · omega
        · rcases List.mem_append.mp hq with hq | hq
          · have := k4 q hq; omega
          · have := m4 q hq; omega
      · intro q hq
        rw [o3 q (by omega), k6 q hq]

/-! ### C655: the end of trees -/

/-- C655: when all nodes are different the end of the trees removes exactly their nodes. -/
theorem C655_destroy : ∀ (f : Forest α) (fuel : Nat) (h : Heap α) (ps a : List Nat), f.size ≤ fuel → Rep h ps f a → a.Nodup →
    ∃ h', destroy fuel h ps = .ok h' ∧ h'.next = h.next ∧ (∀ p, p ∈ a → h'.obj p = none) ∧ ∀ p, p ∉ a → h'.obj p = h.obj p
  | .nil, fuel, h, ps, a, hf, ⟨e1, e2⟩, _ => by
    subst e1; subst e2
    cases fuel with
    | zero => simp [Forest.size] at hf
    | succ fuel => exact ⟨h, rfl, rfl, by simp, fun _ _ => rfl⟩
  | .cons l c s, fuel, h, ps, a, hf, ⟨p, qs, ch, a1, a2, e1, e2, e3, e4, e5, e6⟩, hd => by
    subst e1; subst e6
    cases fuel with
    | zero => simp [Forest.size] at hf
    | succ fuel =>
      have hf : c.size + s.size + 1 ≤ fuel + 1 := hf
      obtain ⟨d1, d2⟩ := List.nodup_cons.mp hd
      obtain ⟨d3, d4, d5⟩ := List.nodup_append.mp d2
      obtain ⟨h1, k1, k2, k3, k4⟩ := C655_destroy c fuel h ch a1 (by omega) e4 d3
      have of : ∀ q, q ≠ p → (free h1 p).obj q = h1.obj q := fun q hq => if_neg hq
      have r5 : Rep (free h1 p) qs s a2 := e5.frame (h' := free h1 p) (Nat.le_of_eq k2.symm) fun q hq => by
        rw [of q fun e => d1 (e ▸ List.mem_append_right _ hq), k4 q fun hm => d5 q hm q hq rfl]
      obtain ⟨h2, m1, m2, m3, m4⟩ := C655_destroy s fuel _ qs a2 (by omega) r5 d4
      refine ⟨h2, ?_, m2.trans k2, ?_, ?_⟩
      · unfold destroy
        simp only [e3]
        rw [k1, Res.ok_bind, m1]
      · intro q hq
        by_cases hq2 : q ∈ a2
        · exact m3 q hq2
        · rw [m4 q hq2]
          rcases List.mem_cons.mp hq with rfl | hq
          · exact if_pos rfl
          · rcases List.mem_append.mp hq with hq | hq
            · rw [of q fun e => d1 (e ▸ List.mem_append_left _ hq)]; exact k3 q hq
            · exact absurd hq hq2
      · intro q hq
        have q0 : q ≠ p := fun e => hq (e ▸ List.mem_cons_self)
        have q1 : q ∉ a1 := fun e => hq (List.mem_cons_of_mem _ (List.mem_append_left _ e))
        have q2 : q ∉ a2 := fun e => hq (List.mem_cons_of_mem _ (List.mem_append_right _ e))
        rw [m4 q q2, of q q0, k4 q q1]

/-- C655: the copy outlives the original, and the original the copy. -/
theorem C655_independent (f : Forest α) (h : Heap α) (ps a : List Nat) (H : Rep h ps f a) (hd : a.Nodup) :
    ∃ h' qs b, copy f.size h ps = .ok (h', qs) ∧
      (∃ h1, destroy f.size h' ps = .ok h1 ∧ Rep h1 qs f b) ∧ (∃ h2, destroy f.size h' qs = .ok h2 ∧ Rep h2 ps f a) := by
  obtain ⟨h', qs, b, e, r, n, k, g, o⟩ := C654_copy f f.size h ps a (Nat.le_refl _) H
  have H' : Rep h' ps f a := H.frame g fun p hp => o p (H.lt p hp)
  have ap : ∀ p, p ∈ a → p ∉ b := fun p hp hb => by
    have := H.lt p hp
    have := (k p hb).1
    omega
  obtain ⟨h1, e1, n1, _, o1⟩ := C655_destroy f f.size h' ps a (Nat.le_refl _) H' hd
  obtain ⟨h2, e2, n2, _, o2⟩ := C655_destroy f f.size h' qs b (Nat.le_refl _) r n
  exact ⟨h', qs, b, e, ⟨h1, e1, r.frame (Nat.le_of_eq n1.symm) fun p hp => o1 p fun hm => ap p hm hp⟩,
    ⟨h2, e2, H'.frame (Nat.le_of_eq n2.symm) fun p hp => o2 p (ap p hp)⟩⟩

/-- C655: after a move the new tree has the children, and the end of the old one changes nothing. -/
theorem C655_move {h : Heap α} {f : Forest α} {ps a : List Nat} (H : Rep h ps f a) (fuel : Nat) (hf : 0 < fuel) :
    Rep h (move ps).1 f a ∧ destroy fuel h (move ps).2 = .ok h := by
  refine ⟨H, ?_⟩
  cases fuel with
  | zero => omega
  | succ fuel => rfl

/-- A root 0 with the children 1 and 2, the second with the child 3. -/
def sample : Heap Nat := ⟨4, fun b => if b = 0 then some (10, [1, 2]) else if b = 1 then some (11, []) else if b = 2 then some (12, [3])
  else if b = 3 then some (13, []) else none⟩

theorem sample_rep : Rep sample [1, 2] (.cons 11 .nil (.cons 12 (.cons 13 .nil .nil) .nil)) [1, 2, 3] :=
  ⟨1, [2], [], [], [2, 3], rfl, by decide, rfl, ⟨rfl, rfl⟩,
    ⟨2, [], [3], [3], [], rfl, by decide, rfl, ⟨3, [], [], [], [], rfl, by decide, rfl, ⟨rfl, rfl⟩, ⟨rfl, rfl⟩, rfl⟩, ⟨rfl, rfl⟩, rfl⟩, rfl⟩

example : ∃ h' qs b, copy 6 sample [1, 2] = .ok (h', qs) ∧ Rep h' qs (.cons 11 .nil (.cons 12 (.cons 13 .nil .nil) .nil)) b ∧ qs = [4, 6] := by
  obtain ⟨h', qs, b, e, r, _⟩ := C654_copy _ 7 sample [1, 2] _ (by decide) sample_rep
  exact ⟨_, _, _, rfl, by
    have : copy 6 sample [1, 2] = copy 7 sample [1, 2] := rfl
    rw [← this] at e
    injection e with e
    injection e with e1 e2
    subst e1; subst e2
    exact r, rfl⟩
example := C655_independent _ sample [1, 2] _ sample_rep (by decide)

/-- C655: `push_back` takes any pointer; with one node twice among the children the end of the tree is undefined. -/
theorem C655_shared_fails : ∃ (h : Heap Nat) (ps : List Nat), (∀ p, p ∈ ps → h.obj p = some (11, [])) ∧ ∀ fuel, destroy fuel h ps = .ub := by
  refine ⟨sample, [1, 1], by decide, fun fuel => ?_⟩
  rcases fuel with _ | _ | _ | fuel <;> rfl

/-! ### C656: branches -/

theorem find_none [DecidableEq α] {h : Heap α} {l : α} : ∀ {f : Forest α} {ps a : List Nat}, Rep h ps f a →
    (∃ p ch, find h l ps = .ok (some p) ∧ p ∈ ps ∧ h.obj p = some (l, ch)) ∨
      (find h l ps = .ok none ∧ ∀ p, p ∈ ps → ∀ x, h.obj p = some x → x.1 ≠ l)
  | .nil, _, _, ⟨e, _⟩ => by subst e; exact .inr ⟨rfl, by simp⟩
  | .cons k c s, _, _, ⟨p, qs, ch, a1, a2, e1, _, e3, _, e5, _⟩ => by
    subst e1
    by_cases hk : k = l
    · subst hk
      exact .inl ⟨p, ch, by unfold find; simp only [e3, if_true], List.mem_cons_self, e3⟩
    · have e : find h l (p :: qs) = find h l qs := by rw [find]; simp only [e3, hk, if_false]
      rcases find_none e5 with ⟨q, d, i, j, m⟩ | ⟨i, j⟩
      · exact .inl ⟨q, d, e.trans i, List.mem_cons_of_mem _ j, m⟩
      · refine .inr ⟨e.trans i, fun q hq x hx => ?_⟩
        rcases List.mem_cons.mp hq with rfl | hq
        · rw [e3] at hx; injection hx with hx; subst hx; exact hk
        · exact j q hq x hx

/-- C656: `branch` returns a child with the label asked for: one that was there, without any change, or a new last child without
children, if no child had that label. -/
theorem C656_branch [DecidableEq α] {h : Heap α} (l : α) {f : Forest α} {ps a : List Nat} (H : Rep h ps f a) :
    ∃ h' p qs ch, branch h l ps = .ok (h', p, qs) ∧ p ∈ qs ∧ h'.obj p = some (l, ch) ∧ (∀ q, q < h.next → h'.obj q = h.obj q) ∧
      ((h' = h ∧ qs = ps) ∨ (qs = ps ++ [p] ∧ ch = [] ∧ h.next ≤ p ∧ Rep h' ps f a ∧ ∀ q, q ∈ ps → ∀ x, h.obj q = some x → x.1 ≠ l)) := by
  rcases find_none (l := l) H with ⟨p, ch, e, i, j⟩ | ⟨e, i⟩
  · refine ⟨h, p, ps, ch, ?_, i, j, fun _ _ => rfl, .inl ⟨rfl, rfl⟩⟩
    unfold branch; rw [e, Res.ok_bind]
  · have o : ∀ q, q < h.next → (alloc h (l, [])).obj q = h.obj q := fun q hq => if_neg (Nat.ne_of_lt hq)
    refine ⟨alloc h (l, []), h.next, ps ++ [h.next], [], ?_, by simp, if_pos rfl, o, .inr ⟨rfl, rfl, Nat.le_refl _, ?_, i⟩⟩
    · unfold branch; rw [e, Res.ok_bind]
    · exact H.frame (Nat.le_succ _) fun q hq => o q (H.lt q hq)

example : ∃ h', branch sample 12 [1, 2] = .ok (h', 2, [1, 2]) := ⟨_, rfl⟩
example : ∃ h', branch sample 14 [1, 2] = .ok (h', 4, [1, 2, 4]) ∧ h'.obj 4 = some (14, []) := ⟨_, rfl, rfl⟩
example := C656_branch 14 sample_rep

end Cnine.TM
