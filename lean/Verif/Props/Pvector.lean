import Verif.Model.Pvector

/-! # Properties of vectors that own what their pointers point to (legacy/labeled/pvector.hpp) -/

namespace Cnine.PV

variable {α : Type _}

/-- The pointers lead to the objects `xs`, in this order. -/
def Holds (h : Heap α) : Vec → List α → Prop
  | [], [] => True
  | p :: v, x :: xs => (∃ a, p = some a ∧ a < h.next ∧ h.obj a = some x) ∧ Holds h v xs
  | _, _ => False

/-- What was there before is unchanged. -/
def Grown (h h' : Heap α) : Prop := h.next ≤ h'.next ∧ ∀ a, a < h.next → h'.obj a = h.obj a

theorem Grown.trans {h h' h'' : Heap α} (a : Grown h h') (b : Grown h' h'') : Grown h h'' :=
  ⟨Nat.le_trans a.1 b.1, fun q hq => (b.2 q (Nat.lt_of_lt_of_le hq a.1)).trans (a.2 q hq)⟩

theorem Holds.grown {h h' : Heap α} (G : Grown h h') : ∀ {v : Vec} {xs : List α}, Holds h v xs → Holds h' v xs
  | [], [], _ => trivial
  | _ :: _, _ :: _, ⟨⟨a, e, l, o⟩, r⟩ => ⟨⟨a, e, Nat.lt_of_lt_of_le l G.1, (G.2 a l).trans o⟩, r.grown G⟩
  | [], _ :: _, H => H.elim
  | _ :: _, [], H => H.elim

theorem Holds.length {h : Heap α} : ∀ {v : Vec} {xs : List α}, Holds h v xs → v.length = xs.length
  | [], [], _ => rfl
  | _ :: _, _ :: _, ⟨_, r⟩ => congrArg (· + 1) r.length
  | [], _ :: _, H => H.elim
  | _ :: _, [], H => H.elim

theorem Holds.append {h : Heap α} : ∀ {v w : Vec} {xs ys : List α}, Holds h v xs → Holds h w ys → Holds h (v ++ w) (xs ++ ys)
  | [], _, [], _, _, b => b
  | _ :: _, _, _ :: _, _, ⟨a, r⟩, b => ⟨a, r.append b⟩
  | [], _, _ :: _, _, H, _ => H.elim
  | _ :: _, _, [], _, H, _ => H.elim

theorem Holds.take {h : Heap α} : ∀ {v : Vec} {xs : List α} (k : Nat), Holds h v xs → Holds h (v.take k) (xs.take k)
  | _, _, 0, _ => by simp [Holds]
  | [], [], _ + 1, _ => trivial
  | _ :: _, _ :: _, k + 1, ⟨a, r⟩ => ⟨a, r.take k⟩
  | [], _ :: _, _ + 1, H => H.elim
  | _ :: _, [], _ + 1, H => H.elim

theorem Holds.drop {h : Heap α} : ∀ {v : Vec} {xs : List α} (k : Nat), Holds h v xs → Holds h (v.drop k) (xs.drop k)
  | _, _, 0, H => H
  | [], [], _ + 1, _ => trivial
  | _ :: _, _ :: _, k + 1, ⟨_, r⟩ => r.drop k
  | [], _ :: _, _ + 1, H => H.elim
  | _ :: _, [], _ + 1, H => H.elim

/-! ### C641: copies -/

/-- C641: the copy holds equal objects, all of them new and different, and everything that was there stays. -/
theorem C641_copy : ∀ (v : Vec) (xs : List α) (h : Heap α), Holds h v xs →
    ∃ h' w, copy v h = .ok (h', w) ∧ Holds h' w xs ∧ Holds h' v xs ∧ Grown h h' ∧
      (∀ p, p ∈ w → ∃ a, p = some a ∧ h.next ≤ a ∧ a < h'.next) ∧ w.Nodup
  | [], [], h, _ => ⟨h, [], rfl, trivial, trivial, ⟨Nat.le_refl _, fun _ _ => rfl⟩, by simp, List.nodup_nil⟩
  | p :: v, x :: xs, h, H => by
    obtain ⟨⟨a, rfl, l, o⟩, r⟩ := H
    have e : clone (some a) h = .ok (⟨h.next + 1, fun b => if b = h.next then some x else h.obj b⟩, some h.next) := by
      unfold clone; simp only [o]
    have G : Grown h ⟨h.next + 1, fun b => if b = h.next then some x else h.obj b⟩ :=
      ⟨Nat.le_succ _, fun q hq => if_neg (Nat.ne_of_lt hq)⟩
    obtain ⟨h', w, c, d, f, g, i, j⟩ := C641_copy v xs _ (r.grown G)
    have g1 : h.next + 1 ≤ h'.next := g.1
    refine ⟨h', some h.next :: w, ?_, ⟨⟨h.next, rfl, g1, ?_⟩, d⟩, ⟨⟨a, rfl, by omega, ?_⟩, f⟩, G.trans g, ?_, ?_⟩
    · unfold copy; rw [e, Res.ok_bind, c]; rfl
    · rw [g.2 h.next (Nat.lt_succ_self _)]; exact if_pos rfl
    · rw [(G.trans g).2 a l, o]
    · intro q hq
      rcases List.mem_cons.mp hq with rfl | hq
      · exact ⟨h.next, rfl, Nat.le_refl _, g1⟩
      · obtain ⟨b, e1, e2, e3⟩ := i q hq
        exact ⟨b, e1, Nat.le_of_succ_le e2, e3⟩
    · refine List.nodup_cons.mpr ⟨fun hm => ?_, j⟩
      obtain ⟨b, e1, e2, _⟩ := i _ hm
      injection e1 with e1
      have e2 : h.next + 1 ≤ b := e2
      omega
  | [], _ :: _, _, H => H.elim
  | _ :: _, [], _, H => H.elim

/-! ### C642: the end of a vector -/

/-- C642: when the pointers that are not null are different and lead to objects, exactly these objects are deleted. -/
theorem C642_destroy : ∀ (v : Vec) (h : Heap α), (∀ a, some a ∈ v → h.obj a ≠ none) → (v.filterMap id).Nodup →
    ∃ h', destroy v h = .ok h' ∧ h'.next = h.next ∧ (∀ a, some a ∈ v → h'.obj a = none) ∧ ∀ a, some a ∉ v → h'.obj a = h.obj a
  | [], h, _, _ => ⟨h, rfl, rfl, by simp, fun _ _ => rfl⟩
  | none :: v, h, A, D => by
    obtain ⟨h', e, n, b, c⟩ := C642_destroy v h (fun a ha => A a (List.mem_cons_of_mem _ ha)) (by simpa using D)
    exact ⟨h', e, n, fun a ha => b a (by simpa using ha), fun a ha => c a (by simpa using ha)⟩
  | some a :: v, h, A, D => by
    have D' : a ∉ v.filterMap id ∧ (v.filterMap id).Nodup := by simpa using D
    have hav : some a ∉ v := fun hm => D'.1 (List.mem_filterMap.mpr ⟨some a, hm, rfl⟩)
    obtain ⟨x, hx⟩ := Option.ne_none_iff_exists'.mp (A a List.mem_cons_self)
    have e0 : del (some a) h = .ok { h with obj := fun b => if b = a then none else h.obj b } := by
      unfold del; simp only [hx]
    obtain ⟨h', e, n, b, c⟩ := C642_destroy v { h with obj := fun b => if b = a then none else h.obj b } (by
      intro b hb
      have : b ≠ a := fun e => hav (e ▸ hb)
      show (if b = a then none else h.obj b) ≠ none
      rw [if_neg this]; exact A b (List.mem_cons_of_mem _ hb)) D'.2
    refine ⟨h', by unfold destroy; rw [e0]; exact e, n, ?_, ?_⟩
    · intro b' hb
      rcases List.mem_cons.mp hb with hb | hb
      · injection hb with hb; subst hb
        rw [c b' hav]; exact if_pos rfl
      · exact b b' hb
    · intro b' hb
      have h1 : b' ≠ a := fun e => hb (by rw [e]; exact List.mem_cons_self)
      rw [c b' fun hm => hb (List.mem_cons_of_mem _ hm)]
      exact if_neg h1

/-- C642: the end of a vector with a pointer to a deleted object is undefined. -/
theorem C642_stale : ∀ (v : Vec) (h : Heap α) (a : Nat), some a ∈ v → h.obj a = none → destroy v h = .ub
  | [], _, _, hm, _ => absurd hm (by simp)
  | none :: v, h, a, hm, ho => by
    have := C642_stale v h a (by simpa using hm) ho
    unfold destroy; exact this
  | some b :: v, h, a, hm, ho => by
    unfold destroy
    cases hb : h.obj b with
    | none => unfold del; simp only [hb]; rfl
    | some x =>
      have e0 : del (some b) h = .ok { h with obj := fun c => if c = b then none else h.obj c } := by unfold del; simp only [hb]
      rw [e0, Res.ok_bind]
      refine C642_stale v _ a ?_ ?_
      · rcases List.mem_cons.mp hm with hm | hm
        · injection hm with hm; subst hm; rw [ho] at hb; exact absurd hb (by simp)
        · exact hm
      · show (if a = b then none else h.obj a) = none
        rw [ho]; exact ite_self _

/-! ### C643: moving -/

/-- C643: the new vector holds the objects, and the end of the old one changes nothing. -/
theorem C643_move {h : Heap α} {v : Vec} {xs : List α} (H : Holds h v xs) :
    Holds h (move v).1 xs ∧ Holds h (move v).2 ([] : List α) ∧ destroy (move v).2 h = .ok h := ⟨H, trivial, rfl⟩

/-! ### C644: assignment -/

/-- C644 (the body, into a vector without elements): the vector holds equal objects. -/
theorem C644_assign_partial {h : Heap α} {x : Vec} {xs : List α} (H : Holds h x xs) :
    ∃ h' v, assignBody [] x h = .ok (h', v) ∧ Holds h' v xs ∧ Holds h' x xs := by
  obtain ⟨h', w, e, a, b, _⟩ := C641_copy x xs h H
  refine ⟨h', w, ?_, a, b⟩
  unfold assignBody destroy
  rw [Res.ok_bind, e]
  rfl

/-- C644: assignment never ends properly, since the function returns nothing. -/
theorem C644_return_fails (v x : Vec) (h h' : Heap α) (w : Vec) : assign v x h ≠ .ok (h', w) := by
  unfold assign
  cases assignBody v x h <;> simp [Bind.bind, Res.bind]

theorem holds_after {h h1 : Heap α} (hn : h1.next = h.next) : ∀ {x : Vec} {xs : List α}, Holds h x xs →
    (∀ a, some a ∈ x → h1.obj a = h.obj a) → Holds h1 x xs
  | [], [], _, _ => trivial
  | _ :: _, _ :: _, ⟨⟨a, e, l, o⟩, r⟩, hq =>
    ⟨⟨a, e, by rw [hn]; exact l, (hq a (by rw [e]; exact List.mem_cons_self)).trans o⟩,
      holds_after hn r fun b hb => hq b (List.mem_cons_of_mem _ hb)⟩
  | [], _ :: _, H, _ => H.elim
  | _ :: _, [], H, _ => H.elim

/-- C644: even up to there, the old pointers stay in a vector that had elements, before those of the copies, though their objects are
deleted; its end is undefined.  The moving assignment does the same. -/
theorem C644_assign_fails {h : Heap α} {v x : Vec} {xs : List α} (H : Holds h x xs) (A : ∀ a, some a ∈ v → h.obj a ≠ none ∧ a < h.next)
    (D : (v.filterMap id).Nodup) (hd : ∀ a, some a ∈ x → some a ∉ v) (a : Nat) (ha : some a ∈ v) :
    (∃ h' w, assignBody v x h = .ok (h', v ++ w) ∧ h'.obj a = none ∧ w.length = xs.length ∧ destroy (v ++ w) h' = .ub) ∧
    (∃ h', moveAssignBody v x h = .ok (h', v ++ x, []) ∧ h'.obj a = none ∧ destroy (v ++ x) h' = .ub) := by
  obtain ⟨h1, e1, n1, b1, c1⟩ := C642_destroy v h (fun a ha => (A a ha).1) D
  have H1 : Holds h1 x xs := holds_after n1 H fun b hb => c1 b (hd b hb)
  obtain ⟨h2, w, e2, a2, _, g2, _⟩ := C641_copy x xs h1 H1
  have ho : h2.obj a = none := by rw [g2.2 a (by rw [n1]; exact (A a ha).2), b1 a ha]
  refine ⟨⟨h2, w, ?_, ho, a2.length, C642_stale _ h2 a (List.mem_append_left _ ha) ho⟩, h1, ?_, b1 a ha,
    C642_stale _ h1 a (List.mem_append_left _ ha) (b1 a ha)⟩
  · unfold assignBody; rw [e1, Res.ok_bind, e2]; rfl
  · unfold moveAssignBody; rw [e1]; rfl

/-! ### C645: leaving one element out -/

/-- C645: the result holds copies of all objects but the one at `j`; the vector stays as it is. -/
theorem C645_remove {h : Heap α} {v : Vec} {xs : List α} (H : Holds h v xs) (j : Nat) (hj : j < xs.length) :
    ∃ h' w, remove v j h = .ok (h', w) ∧ Holds h' w (xs.take j ++ xs.drop (j + 1)) ∧ Holds h' v xs ∧ Grown h h' := by
  obtain ⟨h1, w1, e1, a1, _, g1, _⟩ := C641_copy _ _ h (H.take j)
  obtain ⟨h2, w2, e2, a2, _, g2, _⟩ := C641_copy _ _ h1 ((H.grown g1).drop (j + 1))
  refine ⟨h2, w1 ++ w2, ?_, (a1.grown g2).append a2, H.grown (g1.trans g2), g1.trans g2⟩
  unfold remove
  rw [decide_eq_true (show (0 : Int) ≤ (j : Int) ∧ (j : Int) < (v.length : Int) by rw [H.length]; omega)]
  show (do
    let r ← copy (v.take (j : Int).toNat) h
    let s ← copy (v.drop ((j : Int).toNat + 1)) r.1
    Res.ok (s.1, r.2 ++ s.2)) = _
  rw [Int.toNat_natCast, e1, Res.ok_bind, e2]
  rfl

/-- C645: every other position is refused. -/
theorem C645_refused (v : Vec) (j : Int) (hj : j < 0 ∨ (v.length : Int) ≤ j) (h : Heap α) : remove v j h = .throw := by
  unfold remove
  rw [decide_eq_false (show ¬ ((0 : Int) ≤ j ∧ j < (v.length : Int)) by omega)]
  rfl

/-! ### Examples -/

/-- Three objects, at 0, 1 and 2 (legacy/labeled/pvector.hpp:38). -/
def three : Heap Int := ⟨3, fun a => if a < 3 then some (10 * (a : Int)) else none⟩

theorem three_holds : Holds three [some 0, some 2] [0, 20] := ⟨⟨0, rfl, by decide, rfl⟩, ⟨2, rfl, by decide, rfl⟩, trivial⟩

example : ∃ h' w, copy [some 0, some 2] three = .ok (h', w) ∧ w = [some 3, some 4] ∧ h'.obj 4 = some 20 := ⟨_, _, rfl, rfl, rfl⟩
example : ∃ h' w, copy [some 0, some 2] three = .ok (h', w) ∧ Holds h' w [0, 20] := by
  obtain ⟨h', w, e, a, _⟩ := C641_copy _ _ _ three_holds
  exact ⟨h', w, e, a⟩
example : ∃ h', destroy [some 0, none, some 2, none] three = .ok h' ∧ h'.obj 0 = none ∧ h'.obj 1 = some 10 := ⟨_, rfl, rfl, rfl⟩
example : destroy [some 5, some 0] three = .ub := C642_stale _ _ 5 (by simp) rfl
example : destroy (move [some 0, some 2]).2 three = .ok three := (C643_move three_holds).2.2
example : ∃ h' w, assignBody [some 1] [some 0, some 2] three = .ok (h', [some 1] ++ w) ∧ destroy ([some 1] ++ w) h' = .ub := by
  obtain ⟨⟨h', w, e, _, _, d⟩, _⟩ := C644_assign_fails (v := [some 1]) three_holds (by
    intro a ha
    have : a = 1 := by simpa using ha
    subst this
    exact ⟨by simp [three], by decide⟩) (by simp) (by
    intro a ha hb
    have h1 : a = 1 := by simpa using hb
    subst h1
    simp at ha) 1 (by simp)
  exact ⟨h', w, e, d⟩
example : ∃ h' w, remove [some 0, some 2] 0 three = .ok (h', w) ∧ Holds h' w [20] := by
  obtain ⟨h', w, e, a, _⟩ := C645_remove three_holds 0 (by decide)
  exact ⟨h', w, e, a⟩
example : remove [some 0, some 2] (-1) three = .throw := C645_refused _ _ (Or.inl (by decide)) _

end Cnine.PV
