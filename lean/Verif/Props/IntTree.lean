import Verif.Props.LabeledTree

/-! # C127: trees in an array -/

namespace Cnine.IntTree

/-- Contents of an array: the size and the values written. -/
abbrev Mem := Nat × (Nat → Option Int)

theorem get_ok {a : AutoArray Int} {s : Mem} (h : a.Holds s) {i : Nat} {v : Int} (hi : i < s.1) (hv : s.2 i = some v) :
    a.get i = .ok (a, v) := by
  have := h.size
  unfold AutoArray.get AutoArray.ensure
  rw [if_neg (by omega), Res.ok_bind, Arr.rd_ok (h.val i v hv)]; rfl

theorem set_ok {a : AutoArray Int} {s : Mem} (h : a.Holds s) {i : Nat} (v : Int) (hi : i < s.1) :
    ∃ a', a.set i v = .ok a' ∧ a'.Holds (s.1, fun k => if k = i then some v else s.2 k) := by
  obtain ⟨a', h1, h2⟩ := AutoArray.step_ok (.set i v) h
  refine ⟨a', h1, ?_⟩
  dsimp only [AutoArray.specStep] at h2
  rwa [Nat.max_eq_left (by omega)] at h2

theorem sets_ok : ∀ (vs : List Int) {a : AutoArray Int} {s : Mem}, a.Holds s → ∀ (i : Nat), i + vs.length ≤ s.1 →
    ∃ a', sets vs i a = .ok a' ∧ a'.Holds (s.1, fun k => if i ≤ k ∧ k < i + vs.length then vs[k - i]? else s.2 k) := by
  intro vs
  induction vs with
  | nil =>
    intro a s h i _
    refine ⟨a, rfl, ?_⟩
    have : (fun k => if i ≤ k ∧ k < i + ([] : List Int).length then ([] : List Int)[k - i]? else s.2 k) = s.2 := by
      funext k
      rw [if_neg (by simp)]
    rw [this]
    exact h
  | cons v vs ih =>
    intro a s h i hi
    rw [List.length_cons] at hi
    obtain ⟨a1, e1, h1⟩ := set_ok h v (i := i) (by omega)
    obtain ⟨a2, e2, h2⟩ := ih h1 (i + 1) (by simpa using (by omega : i + 1 + vs.length ≤ s.1))
    refine ⟨a2, ?_, ?_⟩
    · unfold sets; rw [e1, Res.ok_bind]; exact e2
    · have : (fun k => if i ≤ k ∧ k < i + (v :: vs).length then (v :: vs)[k - i]? else s.2 k) =
          (fun k => if i + 1 ≤ k ∧ k < i + 1 + vs.length then vs[k - (i + 1)]? else (if k = i then some v else s.2 k)) := by
        funext k
        rw [List.length_cons]
        by_cases c : k = i
        · subst c
          rw [if_pos (by omega), if_neg (by omega), if_pos rfl, Nat.sub_self]; rfl
        · by_cases d : i + 1 ≤ k ∧ k < i + 1 + vs.length
          · rw [if_pos (by omega), if_pos d, show k - i = k - (i + 1) + 1 from by omega]; rfl
          · rw [if_neg (by omega), if_neg d, if_neg c]
      rw [this]
      exact h2

/-- The forest stored as the children, from child `i` on, of the node at `p`. -/
def Rep (f : Nat → Option Int) : Nat → Nat → PT Int → Prop
  | _, _, .nil => True
  | p, i, .cons x c r => (∃ q : Nat, f (p + 3 + i) = some (q : Int) ∧ f q = some x ∧ f (q + 1) = some (c.width : Int) ∧
      f (q + 2) = some (p : Int) ∧ Rep f q 0 c) ∧ Rep f p (i + 1) r

/-- The number of levels of a forest. -/
def height : PT Int → Nat
  | .nil => 0
  | .cons _ c r => max (height c + 1) (height r)

theorem addNode_ok {a : AutoArray Int} {s : Mem} (h : a.Holds s) {p i : Nat} {w : Int} (v : Int) (n : Nat) (hp : p + 3 + i < s.1)
    (hw : s.2 (p + 1) = some w) (hi : (i : Int) < w) (hs : s.2 (p + 3 + i) = some (-1)) :
    ∃ a' f, addNode a p i v n = .ok (a', s.1) ∧ a'.Holds (s.1 + n + 3, f) ∧ f (p + 3 + i) = some (s.1 : Int) ∧ f s.1 = some v ∧
      f (s.1 + 1) = some (n : Int) ∧ f (s.1 + 2) = some (p : Int) ∧ (∀ j, j < n → f (s.1 + 3 + j) = some (-1)) ∧
      ∀ k, k < s.1 → k ≠ p + 3 + i → f k = s.2 k := by
  have e3 : p + i + 3 = p + 3 + i := by omega
  obtain ⟨a1, e1, h1⟩ := set_ok h (s.1 : Int) hp
  obtain ⟨a2, e2, h2⟩ := AutoArray.resize_ok h1 (s.1 + n + 3)
  obtain ⟨a3, e4, h3⟩ := sets_ok (v :: (n : Int) :: (p : Int) :: List.replicate n (-1)) h2 s.1 (by simp; omega)
  refine ⟨a3, _, ?_, h3, ?_, ?_, ?_, ?_, ?_, ?_⟩
  · unfold addNode
    rw [get_ok h (by omega) hw, Res.ok_bind]
    dsimp only
    rw [SGraph.assrt_ok hi, Res.ok_bind, e3, get_ok h hp hs, Res.ok_bind]
    dsimp only
    rw [SGraph.assrt_ok rfl, Res.ok_bind, h.size, e1, Res.ok_bind, e2, Res.ok_bind, e4, Res.ok_bind]
  · dsimp only
    rw [if_neg (by omega), if_pos rfl]
  · dsimp only
    rw [if_pos (by simp), Nat.sub_self]; rfl
  · dsimp only
    rw [if_pos (by simp), show s.1 + 1 - s.1 = 1 from by omega]; rfl
  · dsimp only
    rw [if_pos (by simp), show s.1 + 2 - s.1 = 2 from by omega]; rfl
  · intro j hj
    dsimp only
    rw [if_pos (by simp; omega), show s.1 + 3 + j - s.1 = j + 3 from by omega]
    show (List.replicate n (-1))[j]? = _
    rw [List.getElem?_replicate, if_pos hj]
  · intro k hk hne
    dsimp only
    rw [if_neg (by omega), if_neg hne]

theorem addKids_ok : ∀ (t : PT Int) {a : AutoArray Int} {s : Mem}, a.Holds s → ∀ (p i : Nat) (w : Int), p + 3 + i + t.width ≤ s.1 →
    s.2 (p + 1) = some w → (i : Int) + t.width ≤ w → (∀ j, j < t.width → s.2 (p + 3 + i + j) = some (-1)) →
    ∃ a' s', addKids t p i a = .ok a' ∧ a'.Holds s' ∧ s.1 + height t ≤ s'.1 ∧
      (∀ k, k < s.1 → (∀ j, j < t.width → k ≠ p + 3 + i + j) → s'.2 k = s.2 k) ∧
      ∀ g : Nat → Option Int, (∀ k, s.1 ≤ k → k < s'.1 → g k = s'.2 k) → (∀ j, j < t.width → g (p + 3 + i + j) = s'.2 (p + 3 + i + j)) →
        Rep g p i t := by
  intro t
  induction t with
  | nil =>
    intro a s h p i w _ _ _ _
    exact ⟨a, s, rfl, h, by simp [height], fun _ _ _ => rfl, fun _ _ _ => trivial⟩
  | cons x c r ihc ihr =>
    intro a s h p i w hlen hw hi hs
    have hwd : (PT.cons x c r).width = r.width + 1 := rfl
    rw [hwd] at hlen hi hs
    obtain ⟨a1, f1, e1, h1, g1, g2, g3, g4, g5, g6⟩ := addNode_ok h (p := p) (i := i) x c.width (by omega) hw (by omega) (hs 0 (by omega))
    obtain ⟨a2, ⟨n2, f2⟩, e2, h2, l2, u2, r2⟩ := ihc h1 s.1 0 c.width (by dsimp only; omega) g3 (by omega) (fun j hj => g5 j hj)
    dsimp only at l2 u2 r2
    have old : ∀ k, k < s.1 → f2 k = f1 k := fun k hk => u2 k (by omega) (by intro j _; omega)
    obtain ⟨a3, ⟨n3, f3⟩, e3, h3, l3, u3, r3⟩ := ihr h2 p (i + 1) w (by dsimp only; omega)
      (by dsimp only; rw [old _ (by omega), g6 _ (by omega) (by omega)]; exact hw) (by push_cast; omega)
      (by
        intro j hj
        dsimp only
        rw [old _ (by omega), g6 _ (by omega) (by omega), show p + 3 + (i + 1) + j = p + 3 + i + (j + 1) from by omega]
        exact hs (j + 1) (by omega))
    dsimp only at l3 u3 r3
    have new : ∀ k, s.1 ≤ k → k < n2 → f3 k = f2 k := fun k hk hk' => u3 k hk' (by intro j hj; omega)
    refine ⟨a3, (n3, f3), ?_, h3, ?_, ?_, ?_⟩
    · unfold addKids
      rw [e1, Res.ok_bind]
      dsimp only
      rw [e2, Res.ok_bind]; exact e3
    · unfold height; dsimp only; omega
    · intro k hk hne
      dsimp only
      rw [u3 k (by omega) (fun j hj => by have := hne (j + 1) (by omega); omega), old k hk,
        g6 k hk (by have := hne 0 (by omega); omega)]
    · intro g hg1 hg2
      dsimp only at hg1 hg2
      have hg0 := hg2 0 (by omega)
      rw [Nat.add_zero] at hg0
      have hnode : ∀ k, s.1 ≤ k → k < s.1 + 3 → g k = f1 k := fun k hk hk' => by
        rw [hg1 k hk (by omega), new k hk (by omega), u2 k (by omega) (by intro j _; omega)]
      refine ⟨⟨s.1, ?_, ?_, ?_, ?_, ?_⟩, ?_⟩
      · rw [hg0, u3 _ (by omega) (by intro j _; omega), old _ (by omega), g1]
      · rw [hnode _ (by omega) (by omega), g2]
      · rw [hnode _ (by omega) (by omega), g3]
      · rw [hnode _ (by omega) (by omega), g4]
      · refine r2 g (fun k hk hk' => ?_) (fun j hj => ?_)
        · rw [hg1 k (by omega) (by omega), new k (by omega) hk']
        · rw [hg1 _ (by omega) (by omega), new _ (by omega) (by omega)]
      · refine r3 g (fun k hk hk' => ?_) (fun j hj => ?_)
        · rw [hg1 k (by omega) (by omega)]
        · rw [show p + 3 + (i + 1) + j = p + 3 + i + (j + 1) from by omega]
          exact hg2 (j + 1) (by omega)

theorem get_ok' {a : AutoArray Int} {s : Mem} (h : a.Holds s) {i : Nat} {v : Int} (hv : s.2 i = some v) :
    ∃ a', a.get i = .ok (a', v) ∧ ∃ n, a'.Holds (n, s.2) := by
  obtain ⟨a', e1, e2⟩ := AutoArray.ensure_ok h i
  refine ⟨a', ?_, _, e2⟩
  unfold AutoArray.get
  rw [e1, Res.ok_bind, Arr.rd_ok (e2.val i v hv)]; rfl

theorem kids_ok (fuel : Nat)
    (ih : ∀ {a : AutoArray Int} {n : Nat} {f : Nat → Option Int}, a.Holds (n, f) → ∀ (t : PT Int) (p : Nat) (x : Int) (r : List Int), f p = some x →
      f (p + 1) = some (t.width : Int) → Rep f p 0 t → height t < fuel → ∃ a' n', dfs fuel a p r = .ok (a', r ++ x :: t.depthFirst) ∧ a'.Holds (n', f)) :
    ∀ (t : PT Int) {a : AutoArray Int} {n : Nat} {f : Nat → Option Int}, a.Holds (n, f) → ∀ (p i : Nat) (r : List Int),
      Rep f p i t → height t ≤ fuel →
      ∃ a' n', kidsLoop (dfs fuel) p t.width i a r = .ok (a', r ++ t.depthFirst) ∧ a'.Holds (n', f) := by
  intro t
  induction t with
  | nil =>
    intro a n f h p i r _ _
    exact ⟨a, n, by unfold PT.width kidsLoop PT.depthFirst; rw [List.append_nil], h⟩
  | cons x c s _ ihs =>
    intro a n f h p i r hrep hh
    unfold Rep at hrep
    unfold height at hh
    obtain ⟨⟨q, h1, h2, h3, _, h5⟩, h6⟩ := hrep
    obtain ⟨a1, e1, n1, k1⟩ := get_ok' h h1
    obtain ⟨a2, n2, e2, k2⟩ := ih k1 c q x r h2 h3 h5 (by omega)
    obtain ⟨a3, n3, e3, k3⟩ := ihs k2 p (i + 1) (r ++ x :: c.depthFirst) h6 (by omega)
    refine ⟨a3, n3, ?_, k3⟩
    unfold PT.width PT.depthFirst
    rw [kidsLoop, e1, Res.ok_bind]
    dsimp only
    unfold index
    rw [if_neg (by omega), Res.ok_bind, Int.toNat_natCast, e2, Res.ok_bind]
    dsimp only
    rw [e3]
    simp

theorem dfs_ok : ∀ (fuel : Nat) {a : AutoArray Int} {n : Nat} {f : Nat → Option Int}, a.Holds (n, f) →
    ∀ (t : PT Int) (p : Nat) (x : Int) (r : List Int), f p = some x →
      f (p + 1) = some (t.width : Int) → Rep f p 0 t → height t < fuel → ∃ a' n', dfs fuel a p r = .ok (a', r ++ x :: t.depthFirst) ∧ a'.Holds (n', f) := by
  intro fuel
  induction fuel with
  | zero => intro a n f _ t p x r _ _ _ hh; omega
  | succ fuel ih =>
    intro a n f h t p x r h1 h2 h3 hh
    obtain ⟨a1, e1, n1, k1⟩ := get_ok' h h1
    obtain ⟨a2, e2, n2, k2⟩ := get_ok' k1 h2
    obtain ⟨a3, n3, e3, k3⟩ := kids_ok fuel ih t k2 p 0 (r ++ [x]) h3 (by omega)
    refine ⟨a3, n3, ?_, k3⟩
    unfold dfs
    rw [e1, Res.ok_bind]
    dsimp only
    rw [e2, Res.ok_bind]
    dsimp only
    rw [Int.toNat_natCast, e3]
    simp

/-- **A tree in an array**: `as_int_tree` succeeds for every tree, the array holds the tree (every child slot points to a node with
the label, the number of children and the position of the parent), and traversing the array gives the labels in the order of the
traversal of the tree. -/
theorem C127_roundtrip (t : LTree Int) :
    ∃ a n f, ofTree t = .ok a ∧ a.Holds (n, f) ∧ f 0 = some t.label ∧ f 1 = some (t.kids.width : Int) ∧ f 2 = some (-1) ∧ Rep f 0 0 t.kids ∧
      depthFirst a = .ok t.depthFirst := by
  have h0 : (AutoArray.empty : AutoArray Int).Holds (0, fun _ => none) :=
    ⟨rfl, by simp [AutoArray.empty], by simp [AutoArray.empty], by simp⟩
  obtain ⟨a1, e1, h1⟩ := AutoArray.resize_ok h0 (t.kids.width + 3)
  obtain ⟨a2, e2, h2⟩ := sets_ok (t.label :: (t.kids.width : Int) :: -1 :: List.replicate t.kids.width (-1)) h1 0 (by simp)
  obtain ⟨a3, ⟨n, f⟩, e3, h3, l3, u3, r3⟩ := addKids_ok t.kids h2 0 0 t.kids.width (by dsimp only; omega)
    (by dsimp only; rw [if_pos (by simp)]; rfl) (by omega) (by
      intro j hj
      dsimp only
      rw [if_pos (by simp; omega), show 0 + 3 + 0 + j - 0 = j + 3 from by omega]
      show (List.replicate t.kids.width (-1))[j]? = _
      rw [List.getElem?_replicate, if_pos hj])
  dsimp only at l3 u3 r3
  have hf0 : f 0 = some t.label := by
    rw [u3 0 (by omega) (by intro j _; omega), if_pos (by simp)]; rfl
  have hf1 : f 1 = some (t.kids.width : Int) := by
    rw [u3 1 (by omega) (by intro j _; omega), if_pos (by simp)]; rfl
  have hf2 : f 2 = some (-1) := by
    rw [u3 2 (by omega) (by intro j _; omega), if_pos (by simp)]; rfl
  have hrep := r3 f (fun _ _ _ => rfl) (fun _ _ => rfl)
  refine ⟨a3, n, f, ?_, h3, hf0, hf1, hf2, hrep, ?_⟩
  · unfold ofTree addRoot
    rw [SGraph.assrt_ok (p := (AutoArray.empty : AutoArray Int).size = 0) rfl, Res.ok_bind, e1, Res.ok_bind, e2, Res.ok_bind]
    exact e3
  · have hsz := h3.size
    dsimp only at hsz
    obtain ⟨a4, n4, e4, _⟩ := dfs_ok (a3.size + 1) h3 t.kids 0 t.label [] hf0 hf1 hrep (by omega)
    unfold depthFirst
    rw [e4]; rfl

example : (ofTree ⟨7, .cons 5 (.cons 4 .nil .nil) (.cons 6 .nil .nil)⟩ >>= fun a => .ok (a.arr.take a.size)) =
    .ok ([7, 2, -1, 5, 12, 5, 1, 0, 9, 4, 0, 5, 6, 0, 0].map some) := by decide

/-- **Copying**: the copy constructor of the array does not copy the entries, so no copied tree can be traversed. -/
theorem C127_copy_fails (a : AutoArray Int) (h : a.size ≠ 0) : depthFirst a.copy = .ub := by
  unfold depthFirst dfs
  rw [(AutoArray.C40_copy_fails a 0 (by omega)).2]; rfl

end Cnine.IntTree
