import Verif.Lemmas.Owners

/-!
# Objects that own blocks of two heaps

What the machines of objects with arrays on the host and on the GPU have in common: each object owns some blocks of both heaps, and what it stands for depends on these only.
-/

namespace Cnine

namespace TwoHeaps

open Owner

/-- A kind of objects: the blocks that an object owns, and when it stands for a value. -/
structure Kind (β O R : Type) where
  hp : O → List Nat
  dp : O → List Nat
  Rep : List (Option β) → List (Option β) → O → R → Prop
  congr : ∀ {h h' d d' : List (Option β)} {o : O} {r : R}, (∀ p ∈ hp o, h'[p]? = h[p]?) → (∀ p ∈ dp o, d'[p]? = d[p]?) → Rep h d o r → Rep h' d' o r

variable {β O R : Type} {K : Kind β O R}

/-- The blocks of the host that belong to a variable. -/
def Kind.hpo (K : Kind β O R) (o : Option O) : List Nat := o.elim [] K.hp

/-- The blocks of the GPU that belong to a variable. -/
def Kind.dpo (K : Kind β O R) (o : Option O) : List Nat := o.elim [] K.dp

/-- A variable of the machine and one of the reference. -/
def Kind.Rel (K : Kind β O R) (h d : List (Option β)) : Option (Option O) → Option (Option R) → Prop
  | none, none => True
  | some none, some none => True
  | some (some o), some (some r) => K.Rep h d o r
  | _, _ => False

/-- The variables `objs` stand for `g`; the blocks of `eh` and `ed` belong to no variable at the moment. -/
structure Inv (K : Kind β O R) (h d : List (Option β)) (objs : List (Option O)) (g : List (Option R)) (eh ed : List Nat) : Prop where
  rel : ∀ v : Nat, K.Rel h d objs[v]? g[v]?
  own : Own h (eh ++ objs.flatMap K.hpo)
  ownd : Own d (ed ++ objs.flatMap K.dpo)

theorem Kind.Rel.congr {h h' d d' : List (Option β)} {o : Option (Option O)} {r : Option (Option R)} (eh : ∀ p ∈ o.elim [] K.hpo, h'[p]? = h[p]?)
    (ed : ∀ p ∈ o.elim [] K.dpo, d'[p]? = d[p]?) (i : K.Rel h d o r) : K.Rel h' d' o r := by
  match o, r, i with
  | none, none, i => exact i
  | some none, some none, i => exact i
  | some (some o), some (some r), i => exact K.congr eh ed i

theorem mem_hpo {objs : List (Option O)} {v p : Nat} (h : p ∈ (objs[v]?).elim [] K.hpo) : p ∈ objs.flatMap K.hpo := by
  cases e : objs[v]? with
  | none => rw [e] at h; cases h
  | some o => rw [e] at h; exact List.mem_flatMap.mpr ⟨o, List.mem_of_getElem? e, h⟩

theorem mem_dpo {objs : List (Option O)} {v p : Nat} (h : p ∈ (objs[v]?).elim [] K.dpo) : p ∈ objs.flatMap K.dpo := by
  cases e : objs[v]? with
  | none => rw [e] at h; cases h
  | some o => rw [e] at h; exact List.mem_flatMap.mpr ⟨o, List.mem_of_getElem? e, h⟩

variable {h d : List (Option β)} {objs : List (Option O)} {g : List (Option R)} {eh ed : List Nat}

theorem Inv.permh (i : Inv K h d objs g eh ed) {eh' : List Nat} (p : eh.Perm eh') : Inv K h d objs g eh' ed :=
  ⟨i.rel, i.own.perm (p.append_right _), i.ownd⟩

theorem Inv.permd (i : Inv K h d objs g eh ed) {ed' : List Nat} (p : ed.Perm ed') : Inv K h d objs g eh ed' :=
  ⟨i.rel, i.own, i.ownd.perm (p.append_right _)⟩

/-- A variable that is in use. -/
theorem Inv.look (i : Inv K h d objs g eh ed) {v : Nat} {r : R} (hv : g[v]? = some (some r)) : ∃ o, objs[v]? = some (some o) ∧ K.Rep h d o r := by
  have := i.rel v
  rw [hv] at this
  match e : objs[v]?, this with
  | some (some o), this => exact ⟨o, rfl, this⟩
  | some none, this => exact this.elim
  | none, this => exact this.elim

theorem Inv.len (i : Inv K h d objs g eh ed) : objs.length = g.length := by
  by_contra c
  rcases Nat.lt_or_gt_of_ne c with c | c
  · have := i.rel objs.length
    rw [List.getElem?_eq_none (Nat.le_refl _), List.getElem?_eq_getElem c] at this
    exact this
  · have := i.rel g.length
    rw [List.getElem?_eq_none (l := g) (Nat.le_refl _), List.getElem?_eq_getElem c] at this
    revert this
    cases objs[g.length] <;> exact id

/-- The object of a variable is taken out. -/
theorem Inv.take (i : Inv K h d objs g eh ed) {v : Nat} {o : O} (hv : objs[v]? = some (some o)) :
    Inv K h d (objs.set v none) (g.set v none) (K.hp o ++ eh) (K.dp o ++ ed) := by
  refine ⟨fun w => ?_, ?_, ?_⟩
  · by_cases c : v = w
    · subst c
      have h1 := (List.getElem?_eq_some_iff.mp hv).1
      have h2 : v < g.length := i.len ▸ h1
      rw [List.getElem?_set_self h1, List.getElem?_set_self h2]
      exact trivial
    · rw [List.getElem?_set_ne c, List.getElem?_set_ne c]
      exact i.rel w
  · have := flat_set K.hpo objs v (some o) none hv
    refine i.own.perm ?_
    have h2 : (objs.flatMap K.hpo).Perm (K.hp o ++ (objs.set v none).flatMap K.hpo) := by
      refine (List.Perm.trans ?_ this.symm).trans List.perm_append_comm
      simp [Kind.hpo]
    refine (h2.append_left eh).trans ?_
    rw [List.append_assoc]
    exact List.perm_append_comm_assoc _ _ _
  · have := flat_set K.dpo objs v (some o) none hv
    refine i.ownd.perm ?_
    have h2 : (objs.flatMap K.dpo).Perm (K.dp o ++ (objs.set v none).flatMap K.dpo) := by
      refine (List.Perm.trans ?_ this.symm).trans List.perm_append_comm
      simp [Kind.dpo]
    refine (h2.append_left ed).trans ?_
    rw [List.append_assoc]
    exact List.perm_append_comm_assoc _ _ _

/-- An object is put into an empty variable. -/
theorem Inv.put {v : Nat} {o : O} {r : R} (i : Inv K h d objs g (K.hp o ++ eh) (K.dp o ++ ed)) (hv : objs[v]? = some none) (e : K.Rep h d o r) :
    Inv K h d (objs.set v (some o)) (g.set v (some r)) eh ed := by
  refine ⟨fun w => ?_, ?_, ?_⟩
  · by_cases c : v = w
    · subst c
      have h1 := (List.getElem?_eq_some_iff.mp hv).1
      have h2 : v < g.length := i.len ▸ h1
      rw [List.getElem?_set_self h1, List.getElem?_set_self h2]
      exact e
    · rw [List.getElem?_set_ne c, List.getElem?_set_ne c]
      exact i.rel w
  · have := flat_set K.hpo objs v none (some o) hv
    refine i.own.perm ?_
    have h2 : ((objs.set v (some o)).flatMap K.hpo).Perm (K.hp o ++ objs.flatMap K.hpo) := by
      refine (List.Perm.trans ?_ this).trans List.perm_append_comm
      simp [Kind.hpo]
    refine List.Perm.trans ?_ (h2.symm.append_left eh)
    rw [List.append_assoc]
    exact List.perm_append_comm_assoc _ _ _
  · have := flat_set K.dpo objs v none (some o) hv
    refine i.ownd.perm ?_
    have h2 : ((objs.set v (some o)).flatMap K.dpo).Perm (K.dp o ++ objs.flatMap K.dpo) := by
      refine (List.Perm.trans ?_ this).trans List.perm_append_comm
      simp [Kind.dpo]
    refine List.Perm.trans ?_ (h2.symm.append_left ed)
    rw [List.append_assoc]
    exact List.perm_append_comm_assoc _ _ _

/-- The object of a variable is replaced by one that was taken out. -/
theorem Inv.back {v : Nat} {o : O} {r : R} (i : Inv K h d (objs.set v none) (g.set v none) (K.hp o ++ eh) (K.dp o ++ ed)) (hv : v < objs.length) (e : K.Rep h d o r) :
    Inv K h d (objs.set v (some o)) (g.set v (some r)) eh ed := by
  have := i.put (v := v) (List.getElem?_set_self hv) e
  rw [List.set_set, List.set_set] at this
  exact this

/-- An object is put into a new variable. -/
theorem Inv.add {o : O} {r : R} (i : Inv K h d objs g (K.hp o ++ eh) (K.dp o ++ ed)) (e : K.Rep h d o r) :
    Inv K h d (objs ++ [some o]) (g ++ [some r]) eh ed := by
  refine ⟨fun w => ?_, ?_, ?_⟩
  · have hl := i.len
    by_cases c : w < objs.length
    · rw [List.getElem?_append_left c, List.getElem?_append_left (hl ▸ c)]
      exact i.rel w
    · rw [List.getElem?_append_right (by omega), List.getElem?_append_right (by omega), hl]
      cases w - g.length with
      | zero => exact e
      | succ n => exact trivial
  · refine i.own.perm ?_
    rw [List.flatMap_append, List.append_assoc]
    refine List.perm_append_comm.trans ?_
    rw [List.append_assoc]
    refine List.Perm.append_left _ ?_
    simp [Kind.hpo]
  · refine i.ownd.perm ?_
    rw [List.flatMap_append, List.append_assoc]
    refine List.perm_append_comm.trans ?_
    rw [List.append_assoc]
    refine List.Perm.append_left _ ?_
    simp [Kind.dpo]

theorem Inv.newh (i : Inv K h d objs g eh ed) (b : β) : Inv K (h ++ [some b]) d objs g (h.length :: eh) ed := by
  refine ⟨fun v => (i.rel v).congr (fun p hp => ?_) fun p hp => rfl, i.own.new b, i.ownd⟩
  exact List.getElem?_append_left (i.own.lt (List.mem_append_right _ (mem_hpo hp)))

theorem Inv.newd (i : Inv K h d objs g eh ed) (b : β) : Inv K h (d ++ [some b]) objs g eh (d.length :: ed) := by
  refine ⟨fun v => (i.rel v).congr (fun p hp => rfl) fun p hp => ?_, i.own, i.ownd.new b⟩
  exact List.getElem?_append_left (i.ownd.lt (List.mem_append_right _ (mem_dpo hp)))

theorem Inv.seth {p : Nat} (i : Inv K h d objs g (p :: eh) ed) (b : β) : Inv K (h.set p (some b)) d objs g (p :: eh) ed := by
  refine ⟨fun v => (i.rel v).congr (fun q hq => ?_) fun p hp => rfl, i.own.assign List.mem_cons_self b, i.ownd⟩
  refine List.getElem?_set_ne fun c => ?_
  exact (List.nodup_cons.mp i.own.1).1 (c ▸ List.mem_append_right _ (mem_hpo hq))

theorem Inv.setd {p : Nat} (i : Inv K h d objs g eh (p :: ed)) (b : β) : Inv K h (d.set p (some b)) objs g eh (p :: ed) := by
  refine ⟨fun v => (i.rel v).congr (fun q hq => rfl) fun q hq => ?_, i.own, i.ownd.assign List.mem_cons_self b⟩
  refine List.getElem?_set_ne fun c => ?_
  exact (List.nodup_cons.mp i.ownd.1).1 (c ▸ List.mem_append_right _ (mem_dpo hq))

theorem Inv.delh {p : Nat} (i : Inv K h d objs g (p :: eh) ed) : Inv K (h.set p none) d objs g eh ed := by
  refine ⟨fun v => (i.rel v).congr (fun q hq => ?_) fun p hp => rfl, Own.del i.own, i.ownd⟩
  refine List.getElem?_set_ne fun c => ?_
  exact (List.nodup_cons.mp i.own.1).1 (c ▸ List.mem_append_right _ (mem_hpo hq))

theorem Inv.deld {p : Nat} (i : Inv K h d objs g eh (p :: ed)) : Inv K h (d.set p none) objs g eh ed := by
  refine ⟨fun v => (i.rel v).congr (fun q hq => rfl) fun q hq => ?_, i.own, Own.del i.ownd⟩
  refine List.getElem?_set_ne fun c => ?_
  exact (List.nodup_cons.mp i.ownd.1).1 (c ▸ List.mem_append_right _ (mem_dpo hq))

theorem Inv.start : Inv K [] [] [] [] [] [] :=
  ⟨fun _ => trivial, ⟨List.nodup_nil, fun p => by simp⟩, ⟨List.nodup_nil, fun p => by simp⟩⟩

/-- All variables are gone. -/
theorem Inv.empty (i : Inv K h d objs g [] []) (hg : ∀ r ∈ g, r = none) : (∀ b ∈ h, b = none) ∧ ∀ b ∈ d, b = none := by
  have ho : ∀ (v : Nat) (o : O), objs[v]? ≠ some (some o) := by
    intro v o hv
    have hr := i.rel v
    rw [hv] at hr
    cases hgv : g[v]? with
    | none => rw [hgv] at hr; exact hr
    | some r => rw [hgv, hg r (List.mem_of_getElem? hgv)] at hr; exact hr
  constructor
  · intro b hb
    obtain ⟨k, hk⟩ := List.mem_iff_getElem?.mp hb
    cases b with
    | none => rfl
    | some x =>
      obtain ⟨o, h1, h2⟩ := List.mem_flatMap.mp ((i.own.2 k).2 ⟨x, hk⟩)
      cases o with
      | none => cases h2
      | some o =>
        obtain ⟨v, hv⟩ := List.mem_iff_getElem?.mp h1
        exact absurd hv (ho v o)
  · intro b hb
    obtain ⟨k, hk⟩ := List.mem_iff_getElem?.mp hb
    cases b with
    | none => rfl
    | some x =>
      obtain ⟨o, h1, h2⟩ := List.mem_flatMap.mp ((i.ownd.2 k).2 ⟨x, hk⟩)
      cases o with
      | none => cases h2
      | some o =>
        obtain ⟨v, hv⟩ := List.mem_iff_getElem?.mp h1
        exact absurd hv (ho v o)

end TwoHeaps

end Cnine
