import Verif.Spec.PoolMem
import Verif.Lemmas.Owners

/-!
# Lemmas on the memory of array pools
-/

namespace Cnine

namespace PoolMem

open Owner

variable {α : Type}

/-- The blocks of a list of blocks. -/
abbrev Heap (α : Type) := List (Option (List (Option α)))

/-- The rows of the directory of the lists `L` stored one after the other from `o` on. -/
def rowsFrom (o : Nat) : List (List α) → List (Option (Nat × Nat))
  | [] => []
  | l :: L => some (o, l.length) :: rowsFrom (o + l.length) L

/-- The block at `p` has at least `m` cells, the first of which hold the lists `L`. -/
def Blk (h : Heap α) (p : Nat) (L : List (List α)) (m : Nat) : Prop :=
  ∃ b, h[p]? = some (some b) ∧ L.flatten.map some <+: b ∧ m ≤ b.length

/-- The directory has the rows of `L`. -/
def DirOk (d : Dir) (L : List (List α)) : Prop :=
  d.n = L.length ∧ (d.tab = some (rowsFrom 0 L) ∨ d.tab = none ∧ L = [] ∧ d.cap ≤ 1)

/-- The cached copy. -/
def CloneOk (d : Heap α) : Option (Nat × List (Option (Nat × Nat))) → Option (List (List α)) → Prop
  | none, none => True
  | some q, some C => Blk d q.1 C 0 ∧ q.2 = rowsFrom 0 C
  | _, _ => False

/-- The arrays of a pool. -/
def ListsOk (h d : Heap α) (o : Obj) : Option (List (List α)) → Prop
  | none => o.arr = none ∧ o.arrg = none
  | some L => o.tail = L.flatten.length ∧ o.tail ≤ o.memsize ∧ DirOk o.dir L ∧
      if o.gpu = true then o.arr = none ∧ ∃ p, o.arrg = some p ∧ Blk d p L o.memsize
      else o.arrg = none ∧ (o.arr = none ∧ o.memsize = 0 ∨ ∃ p, o.arr = some p ∧ Blk h p L o.memsize)

/-- The object `o` stands for the pool `r`. -/
structure Rep (h d : Heap α) (o : Obj) (r : PoolRef.Pool α) : Prop where
  owns : o.isView = false
  gpu : o.gpu = r.gpu
  clone : CloneOk d o.clone r.cache
  lists : ListsOk h d o r.lists

/-- The blocks of the host that belong to an object. -/
def hp (o : Obj) : List Nat := o.arr.toList

/-- The blocks of the GPU that belong to an object. -/
def dp (o : Obj) : List Nat := o.arrg.toList ++ (o.clone.map Prod.fst).toList

/-- The blocks of the host that belong to a variable. -/
def hpo (o : Option Obj) : List Nat := o.elim [] hp

/-- The blocks of the GPU that belong to a variable. -/
def dpo (o : Option Obj) : List Nat := o.elim [] dp

/-- A variable of the machine and one of the reference. -/
def Rel (h d : Heap α) : Option (Option Obj) → Option (Option (PoolRef.Pool α)) → Prop
  | none, none => True
  | some none, some none => True
  | some (some o), some (some r) => Rep h d o r
  | _, _ => False

/-- The state `s` stands for `g`; the blocks of `eh` and `ed` belong to no variable at the moment. -/
structure Inv (s : State α) (g : List (Option (PoolRef.Pool α))) (eh ed : List Nat) : Prop where
  rel : ∀ v : Nat, Rel s.host s.dev s.objs[v]? g[v]?
  own : Own s.host (eh ++ s.objs.flatMap hpo)
  ownd : Own s.dev (ed ++ s.objs.flatMap dpo)

theorem Blk.congr {h h' : Heap α} {p : Nat} {L : List (List α)} {m : Nat} (e : h'[p]? = h[p]?) (b : Blk h p L m) : Blk h' p L m := by
  obtain ⟨b, h1, h2⟩ := b
  exact ⟨b, e.trans h1, h2⟩

theorem Rep.congr {h h' d d' : Heap α} {o : Obj} {r : PoolRef.Pool α} (eh : ∀ p ∈ hp o, h'[p]? = h[p]?) (ed : ∀ p ∈ dp o, d'[p]? = d[p]?) (i : Rep h d o r) :
    Rep h' d' o r := by
  obtain ⟨i1, i2, i3, i4⟩ := i
  obtain ⟨arr, arrg, memsize, tail, gpu, isView, clone, dir⟩ := o
  obtain ⟨lists, gpu', cache⟩ := r
  dsimp only at *
  refine ⟨i1, i2, ?_, ?_⟩
  · cases clone with
    | none => cases cache <;> exact i3
    | some q =>
      cases cache with
      | none => exact i3
      | some C => exact ⟨i3.1.congr (ed _ (by simp [dp])), i3.2⟩
  · cases lists with
    | none => exact i4
    | some L =>
      obtain ⟨k1, k2, k3, k4⟩ := i4
      refine ⟨k1, k2, k3, ?_⟩
      dsimp only at k4 ⊢
      split
      · next c =>
        rw [if_pos c] at k4
        obtain ⟨k4, p, k5, k6⟩ := k4
        subst k5
        exact ⟨k4, p, rfl, k6.congr (ed _ (by simp [dp]))⟩
      · next c =>
        rw [if_neg c] at k4
        obtain ⟨k4, k5⟩ := k4
        refine ⟨k4, ?_⟩
        obtain k5 | ⟨p, k5, k6⟩ := k5
        · exact Or.inl k5
        · subst k5
          exact Or.inr ⟨p, rfl, k6.congr (eh _ (by simp [hp]))⟩

theorem Rel.congr {h h' d d' : Heap α} {o : Option (Option Obj)} {r : Option (Option (PoolRef.Pool α))} (eh : ∀ p ∈ o.elim [] hpo, h'[p]? = h[p]?)
    (ed : ∀ p ∈ o.elim [] dpo, d'[p]? = d[p]?) (i : Rel h d o r) : Rel h' d' o r := by
  match o, r, i with
  | none, none, i => exact i
  | some none, some none, i => exact i
  | some (some o), some (some r), i => exact Rep.congr eh ed i

theorem mem_hpo {objs : List (Option Obj)} {v p : Nat} (h : p ∈ (objs[v]?).elim [] hpo) : p ∈ objs.flatMap hpo := by
  cases e : objs[v]? with
  | none => rw [e] at h; cases h
  | some o => rw [e] at h; exact List.mem_flatMap.mpr ⟨o, List.mem_of_getElem? e, h⟩

theorem mem_dpo {objs : List (Option Obj)} {v p : Nat} (h : p ∈ (objs[v]?).elim [] dpo) : p ∈ objs.flatMap dpo := by
  cases e : objs[v]? with
  | none => rw [e] at h; cases h
  | some o => rw [e] at h; exact List.mem_flatMap.mpr ⟨o, List.mem_of_getElem? e, h⟩

variable {s : State α} {g : List (Option (PoolRef.Pool α))} {eh ed : List Nat}

theorem Inv.permh (i : Inv s g eh ed) {eh' : List Nat} (p : eh.Perm eh') : Inv s g eh' ed :=
  ⟨i.rel, i.own.perm (p.append_right _), i.ownd⟩

theorem Inv.permd (i : Inv s g eh ed) {ed' : List Nat} (p : ed.Perm ed') : Inv s g eh ed' :=
  ⟨i.rel, i.own, i.ownd.perm (p.append_right _)⟩

/-- A variable that is in use. -/
theorem Inv.look (i : Inv s g eh ed) {v : Nat} {r : PoolRef.Pool α} (h : g[v]? = some (some r)) : ∃ o, s.objs[v]? = some (some o) ∧ Rep s.host s.dev o r := by
  have := i.rel v
  rw [h] at this
  match e : s.objs[v]?, this with
  | some (some o), this => exact ⟨o, rfl, this⟩
  | some none, this => exact this.elim
  | none, this => exact this.elim

theorem Inv.len (i : Inv s g eh ed) : s.objs.length = g.length := by
  by_contra c
  rcases Nat.lt_or_gt_of_ne c with c | c
  · have := i.rel s.objs.length
    rw [List.getElem?_eq_none (Nat.le_refl _), List.getElem?_eq_getElem c] at this
    exact this
  · have := i.rel g.length
    rw [List.getElem?_eq_none (l := g) (Nat.le_refl _), List.getElem?_eq_getElem c] at this
    revert this
    cases s.objs[g.length] <;> exact id

/-- The object of a variable is taken out. -/
theorem Inv.take (i : Inv s g eh ed) {v : Nat} {o : Obj} (h : s.objs[v]? = some (some o)) :
    Inv { s with objs := s.objs.set v none } (g.set v none) (hp o ++ eh) (dp o ++ ed) := by
  refine ⟨fun w => ?_, ?_, ?_⟩
  · by_cases c : v = w
    · subst c
      have h1 := (List.getElem?_eq_some_iff.mp h).1
      have h2 : v < g.length := i.len ▸ h1
      dsimp only
      rw [List.getElem?_set_self h1, List.getElem?_set_self h2]
      exact trivial
    · dsimp only
      rw [List.getElem?_set_ne c, List.getElem?_set_ne c]
      exact i.rel w
  · have := flat_set hpo s.objs v (some o) none h
    refine i.own.perm ?_
    have h2 : (s.objs.flatMap hpo).Perm (hp o ++ (s.objs.set v none).flatMap hpo) := by
      refine (List.Perm.trans ?_ this.symm).trans List.perm_append_comm
      simp [hpo]
    refine (h2.append_left eh).trans ?_
    rw [List.append_assoc]
    exact List.perm_append_comm_assoc _ _ _
  · have := flat_set dpo s.objs v (some o) none h
    refine i.ownd.perm ?_
    have h2 : (s.objs.flatMap dpo).Perm (dp o ++ (s.objs.set v none).flatMap dpo) := by
      refine (List.Perm.trans ?_ this.symm).trans List.perm_append_comm
      simp [dpo]
    refine (h2.append_left ed).trans ?_
    rw [List.append_assoc]
    exact List.perm_append_comm_assoc _ _ _

/-- An object is put into an empty variable. -/
theorem Inv.put {v : Nat} {o : Obj} {r : PoolRef.Pool α} (i : Inv s g (hp o ++ eh) (dp o ++ ed)) (h : s.objs[v]? = some none) (e : Rep s.host s.dev o r) :
    Inv { s with objs := s.objs.set v (some o) } (g.set v (some r)) eh ed := by
  refine ⟨fun w => ?_, ?_, ?_⟩
  · by_cases c : v = w
    · subst c
      have h1 := (List.getElem?_eq_some_iff.mp h).1
      have h2 : v < g.length := i.len ▸ h1
      dsimp only
      rw [List.getElem?_set_self h1, List.getElem?_set_self h2]
      exact e
    · dsimp only
      rw [List.getElem?_set_ne c, List.getElem?_set_ne c]
      exact i.rel w
  · have := flat_set hpo s.objs v none (some o) h
    refine i.own.perm ?_
    have h2 : ((s.objs.set v (some o)).flatMap hpo).Perm (hp o ++ s.objs.flatMap hpo) := by
      refine (List.Perm.trans ?_ this).trans List.perm_append_comm
      simp [hpo]
    refine List.Perm.trans ?_ (h2.symm.append_left eh)
    rw [List.append_assoc]
    exact List.perm_append_comm_assoc _ _ _
  · have := flat_set dpo s.objs v none (some o) h
    refine i.ownd.perm ?_
    have h2 : ((s.objs.set v (some o)).flatMap dpo).Perm (dp o ++ s.objs.flatMap dpo) := by
      refine (List.Perm.trans ?_ this).trans List.perm_append_comm
      simp [dpo]
    refine List.Perm.trans ?_ (h2.symm.append_left ed)
    rw [List.append_assoc]
    exact List.perm_append_comm_assoc _ _ _

/-- An object is put into a new variable. -/
theorem Inv.add {o : Obj} {r : PoolRef.Pool α} (i : Inv s g (hp o ++ eh) (dp o ++ ed)) (e : Rep s.host s.dev o r) :
    Inv { s with objs := s.objs ++ [some o] } (g ++ [some r]) eh ed := by
  refine ⟨fun w => ?_, ?_, ?_⟩
  · dsimp only
    have hl := i.len
    by_cases c : w < s.objs.length
    · rw [List.getElem?_append_left c, List.getElem?_append_left (hl ▸ c)]
      exact i.rel w
    · rw [List.getElem?_append_right (by omega), List.getElem?_append_right (by omega), hl]
      cases w - g.length with
      | zero => exact e
      | succ n => exact trivial
  · refine i.own.perm ?_
    rw [List.flatMap_append, List.append_assoc]
    refine List.perm_append_comm.trans ?_
    rw [List.append_assoc]
    refine List.Perm.append_left _ ?_
    simp [hpo]
  · refine i.ownd.perm ?_
    rw [List.flatMap_append, List.append_assoc]
    refine List.perm_append_comm.trans ?_
    rw [List.append_assoc]
    refine List.Perm.append_left _ ?_
    simp [dpo]

theorem Inv.newh (i : Inv s g eh ed) (b : List (Option α)) : Inv { s with host := s.host ++ [some b] } g (s.host.length :: eh) ed := by
  refine ⟨fun v => (i.rel v).congr (fun p hp => ?_) fun p hp => rfl, i.own.new b, i.ownd⟩
  exact List.getElem?_append_left (i.own.lt (List.mem_append_right _ (mem_hpo hp)))

theorem Inv.newd (i : Inv s g eh ed) (b : List (Option α)) : Inv { s with dev := s.dev ++ [some b] } g eh (s.dev.length :: ed) := by
  refine ⟨fun v => (i.rel v).congr (fun p hp => rfl) fun p hp => ?_, i.own, i.ownd.new b⟩
  exact List.getElem?_append_left (i.ownd.lt (List.mem_append_right _ (mem_dpo hp)))

theorem Inv.seth {p : Nat} (i : Inv s g (p :: eh) ed) (b : List (Option α)) : Inv { s with host := s.host.set p (some b) } g (p :: eh) ed := by
  refine ⟨fun v => (i.rel v).congr (fun q hq => ?_) fun p hp => rfl, i.own.assign List.mem_cons_self b, i.ownd⟩
  refine List.getElem?_set_ne fun c => ?_
  exact (List.nodup_cons.mp i.own.1).1 (c ▸ List.mem_append_right _ (mem_hpo hq))

theorem Inv.delh {p : Nat} (i : Inv s g (p :: eh) ed) : Inv { s with host := s.host.set p none } g eh ed := by
  refine ⟨fun v => (i.rel v).congr (fun q hq => ?_) fun p hp => rfl, Own.del i.own, i.ownd⟩
  refine List.getElem?_set_ne fun c => ?_
  exact (List.nodup_cons.mp i.own.1).1 (c ▸ List.mem_append_right _ (mem_hpo hq))

theorem Inv.deld {p : Nat} (i : Inv s g eh (p :: ed)) : Inv { s with dev := s.dev.set p none } g eh ed := by
  refine ⟨fun v => (i.rel v).congr (fun q hq => rfl) fun q hq => ?_, i.own, Own.del i.ownd⟩
  refine List.getElem?_set_ne fun c => ?_
  exact (List.nodup_cons.mp i.ownd.1).1 (c ▸ List.mem_append_right _ (mem_dpo hq))

/-- What the release of a pointer leaves. -/
def freed (h : Heap α) (p : Option Nat) : Heap α := p.elim h fun b => h.set b none

theorem Inv.freeh {p : Option Nat} (i : Inv s g (p.toList ++ eh) ed) : free s.host p = .ok (freed s.host p) ∧ Inv { s with host := freed s.host p } g eh ed := by
  cases p with
  | none => exact ⟨rfl, i⟩
  | some p =>
    obtain ⟨b, hb⟩ := (i.own.2 p).1 (by simp)
    exact ⟨by rw [free, hb]; rfl, Inv.delh i⟩

theorem Inv.freed {p : Option Nat} (i : Inv s g eh (p.toList ++ ed)) : free s.dev p = .ok (PoolMem.freed s.dev p) ∧ Inv { s with dev := PoolMem.freed s.dev p } g eh ed := by
  cases p with
  | none => exact ⟨rfl, i⟩
  | some p =>
    obtain ⟨b, hb⟩ := (i.ownd.2 p).1 (by simp)
    exact ⟨by rw [free, hb]; rfl, Inv.deld i⟩

theorem freed_length (h : Heap α) (p : Option Nat) : (PoolMem.freed h p).length = h.length := by
  cases p with
  | none => rfl
  | some p => exact List.length_set

theorem rowsFrom_append (l : List α) : ∀ (o : Nat) (L : List (List α)), rowsFrom o (L ++ [l]) = rowsFrom o L ++ [some (o + L.flatten.length, l.length)]
  | o, [] => rfl
  | o, k :: L => by
    rw [List.cons_append, rowsFrom, rowsFrom_append l, rowsFrom, List.cons_append, List.flatten_cons, List.length_append, Nat.add_assoc]

theorem rowsFrom_length : ∀ (o : Nat) (L : List (List α)), (rowsFrom o L).length = L.length
  | _, [] => rfl
  | o, k :: L => by rw [rowsFrom, List.length_cons, rowsFrom_length, List.length_cons]

theorem rowsFrom_get : ∀ (o : Nat) (L : List (List α)) (i : Nat) (l : List α), L[i]? = some l →
    (rowsFrom o L)[i]? = some (some (o + (L.take i).flatten.length, l.length))
  | _, [], _, _, h => by simp at h
  | o, k :: L, 0, l, h => by
    simp only [List.getElem?_cons_zero, Option.some.injEq] at h
    subst h
    rfl
  | o, k :: L, i + 1, l, h => by
    simp only [List.getElem?_cons_succ] at h
    rw [rowsFrom, List.getElem?_cons_succ, rowsFrom_get _ L i l h, List.take_succ_cons, List.flatten_cons, List.length_append, Nat.add_assoc]

theorem rowsFrom_set : ∀ (o : Nat) (L : List (List α)) (i : Nat) (l l' : List α), L[i]? = some l → l'.length = l.length → rowsFrom o (L.set i l') = rowsFrom o L
  | _, [], _, _, _, h, _ => by simp at h
  | o, k :: L, 0, l, l', h, e => by
    simp only [List.getElem?_cons_zero, Option.some.injEq] at h
    subst h
    rw [List.set_cons_zero, rowsFrom, rowsFrom, e]
  | o, k :: L, i + 1, l, l', h, e => by
    simp only [List.getElem?_cons_succ] at h
    rw [List.set_cons_succ, rowsFrom, rowsFrom, rowsFrom_set _ L i l l' h e]

theorem flatten_split : ∀ (L : List (List α)) (i : Nat) (l : List α), L[i]? = some l → L.flatten = (L.take i).flatten ++ l ++ (L.drop (i + 1)).flatten
  | [], _, _, h => by simp at h
  | k :: L, 0, l, h => by
    simp only [List.getElem?_cons_zero, Option.some.injEq] at h
    subst h
    simp
  | k :: L, i + 1, l, h => by
    simp only [List.getElem?_cons_succ] at h
    rw [List.flatten_cons, flatten_split L i l h, List.take_succ_cons, List.flatten_cons, List.drop_succ_cons]
    simp only [List.append_assoc]

theorem flatten_set : ∀ (L : List (List α)) (i : Nat) (l l' : List α), L[i]? = some l → (L.set i l').flatten = (L.take i).flatten ++ l' ++ (L.drop (i + 1)).flatten
  | [], _, _, _, h => by simp at h
  | k :: L, 0, l, l', h => by simp
  | k :: L, i + 1, l, l', h => by
    simp only [List.getElem?_cons_succ] at h
    rw [List.set_cons_succ, List.flatten_cons, flatten_set L i l l' h, List.take_succ_cons, List.flatten_cons, List.drop_succ_cons]
    simp only [List.append_assoc]

theorem filterMap_some (l : List α) : (l.map some).filterMap id = l := by
  induction l with
  | nil => rfl
  | cons a l ih => simp [ih]

/-- Reading a list from the block. -/
theorem Blk.read {h : Heap α} {p : Nat} {L : List (List α)} {m : Nat} (b : Blk h p L m) {i : Nat} {l : List α} (hl : L[i]? = some l) :
    readList h (some p) (L.take i).flatten.length l.length = .ok l := by
  obtain ⟨b, h1, ⟨k, h2⟩, h3⟩ := b
  unfold readList
  split
  · next c => rw [List.eq_nil_of_length_eq_zero c]
  · simp only [h1]
    rw [flatten_split L i l hl, List.map_append, List.map_append] at h2
    have e : (b.drop (L.take i).flatten.length).take l.length = l.map some := by
      rw [← h2, List.append_assoc, List.append_assoc, List.drop_left' (List.length_map _), List.take_left' (List.length_map _)]
    rw [e, filterMap_some, if_pos]
    refine ⟨?_, by simp⟩
    rw [← h2]
    simp only [List.length_append, List.length_map]
    omega

/-- Reading a list of a pool on the host. -/
theorem readHost {h d : Heap α} {o : Obj} {L : List (List α)} (hl : ListsOk h d o (some L)) (hg : o.gpu = false) {i : Nat} {l : List α} (e : L[i]? = some l) :
    readList h o.arr (L.take i).flatten.length l.length = .ok l := by
  obtain ⟨k1, k2, k3, k4⟩ := hl
  rw [hg, if_neg (by simp)] at k4
  obtain ⟨k4, ⟨k5, k6⟩ | ⟨p, k5, k6⟩⟩ := k4
  · have : l = [] := by
      have h0 : L.flatten = [] := List.eq_nil_of_length_eq_zero (by omega)
      rw [flatten_split L i l e] at h0
      simp only [List.append_eq_nil_iff] at h0
      exact h0.1.2
    subst this
    simp [readList]
  · rw [k5]
    exact k6.read e

theorem Blk.source {h : Heap α} {p : Nat} {L : List (List α)} {m : Nat} (b : Blk h p L m) : source h (some p) L.flatten.length = .ok (L.flatten.map some) := by
  obtain ⟨b, h1, ⟨k, h2⟩, h3⟩ := b
  unfold PoolMem.source
  split
  · next c => rw [List.eq_nil_of_length_eq_zero c]; rfl
  · simp only [h1]
    rw [if_pos (by rw [← h2, List.length_append, List.length_map]; omega), ← h2, List.take_left' (List.length_map _)]

/-- The source of a copy of a pool on the host. -/
theorem sourceHost {h d : Heap α} {o : Obj} {L : List (List α)} (hl : ListsOk h d o (some L)) (hg : o.gpu = false) :
    source h o.arr o.tail = .ok (L.flatten.map some) := by
  obtain ⟨k1, k2, k3, k4⟩ := hl
  rw [hg, if_neg (by simp)] at k4
  obtain ⟨k4, ⟨k5, k6⟩ | ⟨p, k5, k6⟩⟩ := k4
  · have h0 : L.flatten = [] := List.eq_nil_of_length_eq_zero (by omega)
    rw [k1, h0]
    simp [source]
  · rw [k5, k1]
    exact k6.source

theorem blk_new (h : Heap α) (L : List (List α)) (n : Nat) : Blk (h ++ [some (block n (L.flatten.map some))]) h.length L n := by
  refine ⟨block n (L.flatten.map some), by rw [List.getElem?_append_right (Nat.le_refl _), Nat.sub_self]; rfl, ⟨_, rfl⟩, ?_⟩
  unfold block
  simp only [List.length_append, List.length_map, List.length_replicate]
  omega

theorem DirOk.copy {d : Dir} {L : List (List α)} (h : DirOk d L) : ∃ d', d.copy = .ok d' ∧ DirOk d' L ∧ d'.tab = some (rowsFrom 0 L) := by
  obtain ⟨n, cap, tab⟩ := d
  obtain ⟨h1, h2 | ⟨h2, h3, h4⟩⟩ := h
  · dsimp only at h1 h2
    subst h2
    exact ⟨⟨n, n, _⟩, rfl, ⟨h1, Or.inl rfl⟩, rfl⟩
  · dsimp only at h1 h2
    subst h2 h3
    simp only [List.length_nil] at h1
    subst h1
    exact ⟨⟨0, 0, some []⟩, rfl, ⟨rfl, Or.inl rfl⟩, rfl⟩

theorem DirOk.push {d : Dir} {L : List (List α)} (h : DirOk d L) (l : List α) : ∃ d', d.push L.flatten.length l.length = .ok d' ∧ DirOk d' (L ++ [l]) := by
  obtain ⟨n, cap, tab⟩ := d
  obtain ⟨h1, h2 | ⟨h2, h3, h4⟩⟩ := h
  · dsimp only at h1 h2
    subst h1 h2
    have e := rowsFrom_append l 0 L
    rw [Nat.zero_add] at e
    unfold Dir.push
    dsimp only
    split
    · exact ⟨_, rfl, by simp, Or.inl (by rw [e])⟩
    · exact ⟨_, rfl, by simp, Or.inl (by rw [e])⟩
  · dsimp only at h1 h2
    subst h2 h3
    simp only [List.length_nil] at h1
    subst h1
    unfold Dir.push
    dsimp only at h4 ⊢
    rw [if_pos (by omega), if_pos rfl]
    exact ⟨_, rfl, rfl, Or.inl rfl⟩

theorem DirOk.row {d : Dir} {L : List (List α)} (h : DirOk d L) {i : Nat} {l : List α} (hl : L[i]? = some l) : d.row i = .ok ((L.take i).flatten.length, l.length) := by
  obtain ⟨n, cap, tab⟩ := d
  obtain ⟨h1, h2 | ⟨h2, h3, h4⟩⟩ := h
  · dsimp only at h1 h2
    subst h2
    have := rowsFrom_get 0 L i l hl
    rw [Nat.zero_add] at this
    unfold Dir.row
    simp only [this]
  · subst h3
    simp at hl

/-- The machine does what the reference does, unless that makes no promise. -/
def Agrees (s : State α) (g : List (Option (PoolRef.Pool α))) (c : Cmd α) : Prop :=
  match PoolRef.step g c with
  | .ub => True
  | .throw => step s c = .throw
  | .ok (g', x) => ∃ s', step s c = .ok (s', x) ∧ Inv s' g' [] []

theorem ref_look (g : List (Option (PoolRef.Pool α))) (v : Nat) : PoolRef.look g v = .ub ∨ ∃ r, g[v]? = some (some r) ∧ PoolRef.look g v = .ok r := by
  unfold PoolRef.look
  split
  · next r h => exact Or.inr ⟨r, h, rfl⟩
  · exact Or.inl rfl

theorem ref_full (g : List (Option (PoolRef.Pool α))) (v : Nat) :
    PoolRef.full g v = .ub ∨ ∃ (L : List (List α)) (b : Bool) (C : Option (List (List α))), g[v]? = some (some ⟨some L, b, C⟩) ∧ PoolRef.full g v = .ok (⟨some L, b, C⟩, L) := by
  unfold PoolRef.full
  obtain h | ⟨⟨L, b, C⟩, h, e⟩ := ref_look g v
  · rw [h]; exact Or.inl rfl
  · rw [e, Res.ok_bind]
    cases L with
    | none => exact Or.inl rfl
    | some L => exact Or.inr ⟨L, b, C, h, rfl⟩

theorem ref_hosted (g : List (Option (PoolRef.Pool α))) (v : Nat) :
    PoolRef.hosted g v = .ub ∨ ∃ (L : List (List α)) (C : Option (List (List α))), g[v]? = some (some ⟨some L, false, C⟩) ∧ PoolRef.hosted g v = .ok (⟨some L, false, C⟩, L) := by
  unfold PoolRef.hosted
  obtain h | ⟨L, b, C, h, e⟩ := ref_full g v
  · rw [h]; exact Or.inl rfl
  · rw [e, Res.ok_bind]
    cases b with
    | true => exact Or.inl rfl
    | false => exact Or.inr ⟨L, C, h, rfl⟩

theorem look_eq {s : State α} {v : Nat} {o : Obj} (h : s.objs[v]? = some (some o)) : look s v = .ok o := by
  unfold look
  rw [h]

theorem make_ok (i : Inv s g [] []) : Agrees s g .make := by
  refine ⟨_, rfl, ?_⟩
  refine Inv.add (eh := []) (ed := []) (o := fresh) i ⟨rfl, rfl, trivial, ?_⟩
  exact ⟨rfl, Nat.le_refl _, ⟨rfl, Or.inr ⟨rfl, rfl, Nat.zero_le _⟩⟩, rfl, Or.inl ⟨rfl, rfl⟩⟩

theorem get_ok (i : Inv s g [] []) (v k : Nat) : Agrees s g (.get v k) := by
  unfold Agrees
  rw [PoolRef.step]
  obtain h | ⟨L, C, h, e⟩ := ref_hosted g v
  · rw [h]; exact trivial
  rw [e, Res.ok_bind]
  obtain ⟨o, ho, hr⟩ := i.look h
  have hn : o.dir.n = L.length := hr.lists.2.2.1.1
  dsimp only
  rw [step, get, look_eq ho, Res.ok_bind, hn]
  cases hl : L[k]? with
  | none =>
    have : L.length ≤ k := List.getElem?_eq_none_iff.mp hl
    dsimp only
    rw [decide_eq_false (by omega), Res.assrt_false]
    rfl
  | some l =>
    have : k < L.length := (List.getElem?_eq_some_iff.mp hl).1
    dsimp only
    rw [decide_eq_true this, Res.assrt_true, Res.ok_bind, hr.lists.2.2.1.row hl, Res.ok_bind]
    dsimp only
    rw [readHost hr.lists hr.gpu hl]
    exact ⟨s, rfl, i⟩

theorem copy_ok (i : Inv s g [] []) (w : Nat) : Agrees s g (.copy w) := by
  unfold Agrees
  rw [PoolRef.step]
  obtain h | ⟨L, C, h, e⟩ := ref_hosted g w
  · rw [h]; exact trivial
  rw [e, Res.ok_bind]
  obtain ⟨o, ho, hr⟩ := i.look h
  have hg : o.gpu = false := hr.gpu
  obtain ⟨d, hd, hd1, _⟩ := hr.lists.2.2.1.copy
  dsimp only
  rw [step, copy, look_eq ho, Res.ok_bind, hg, if_neg (by simp), sourceHost hr.lists hg, Res.ok_bind, hd]
  refine ⟨_, rfl, ?_⟩
  have i1 := i.newh (block o.tail (L.flatten.map some))
  refine Inv.add (eh := []) (ed := []) (o := ⟨some s.host.length, none, o.tail, o.tail, false, false, none, d⟩) i1 ⟨rfl, rfl, trivial, ?_⟩
  exact ⟨hr.lists.1, Nat.le_refl _, hd1, rfl, Or.inr ⟨_, rfl, blk_new _ _ _⟩⟩

theorem move_ok (i : Inv s g [] []) (w : Nat) : Agrees s g (.move w) := by
  unfold Agrees
  rw [PoolRef.step]
  obtain h | ⟨L, b, C, h, e⟩ := ref_full g w
  · rw [h]; exact trivial
  rw [e, Res.ok_bind]
  obtain ⟨o, ho, hr⟩ := i.look h
  dsimp only
  rw [step, move, look_eq ho]
  refine ⟨_, rfl, ?_⟩
  have i1 := i.take ho
  have hw := (List.getElem?_eq_some_iff.mp ho).1
  have i1' := i1.permd (ed' := dp { o with tail := 0, memsize := 0, arr := none, arrg := none, dir := o.dir.moved } ++ o.arrg.toList) (by
    rw [List.append_nil]
    exact List.perm_append_comm)
  have i2 := Inv.put (v := w) (o := { o with tail := 0, memsize := 0, arr := none, arrg := none, dir := o.dir.moved }) (r := ⟨none, b, C⟩) i1'
    (List.getElem?_set_self hw) ⟨hr.owns, hr.gpu, hr.clone, rfl, rfl⟩
  dsimp only at i2
  rw [List.set_set, List.set_set] at i2
  have i3 := (i2.permh (eh' := hp { o with clone := none } ++ []) (List.Perm.refl _)).permd (ed' := dp { o with clone := none } ++ []) (by simp [dp])
  exact Inv.add i3 (r := ⟨some L, b, none⟩) ⟨hr.owns, hr.gpu, trivial, hr.lists⟩

theorem destroy_ok (i : Inv s g [] []) (v : Nat) : Agrees s g (.destroy v) := by
  unfold Agrees
  rw [PoolRef.step]
  obtain h | ⟨r, h, e⟩ := ref_look g v
  · rw [h]; exact trivial
  rw [e, Res.ok_bind]
  obtain ⟨o, ho, hr⟩ := i.look h
  dsimp only
  have i1 := i.take ho
  obtain ⟨f1, i2⟩ := Inv.freeh (p := o.arr) i1
  rw [dp, List.append_assoc] at i2
  obtain ⟨f2, i3⟩ := Inv.freed i2
  obtain ⟨f3, i4⟩ := Inv.freed i3
  dsimp only at f1 f2 f3 i4
  rw [step, destroy, look_eq ho, Res.ok_bind, hr.owns, if_neg (by simp), f1, Res.ok_bind, f2, Res.ok_bind, f3]
  exact ⟨_, rfl, i4⟩

/-- A pool that is held, of which the arrays are on the host. -/
structure Held (s : State α) (g : List (Option (PoolRef.Pool α))) (o : Obj) (L : List (List α)) (C : Option (List (List α))) : Prop where
  inv : Inv s g (hp o ++ []) (dp o ++ [])
  rep : Rep s.host s.dev o ⟨some L, false, C⟩

/-- There is room for `n` cells after `reserve(n)`. -/
theorem Held.reserve {o : Obj} {L : List (List α)} {C : Option (List (List α))} (i : Held s g o L C) (n : Nat) (hn : L.flatten.length ≤ n) :
    ∃ s' o', PoolMem.reserve s o n = .ok (s', o') ∧ Held s' g o' L C ∧ n ≤ o'.memsize ∧ s'.objs = s.objs ∧ o'.dir = o.dir ∧ o'.tail = o.tail := by
  unfold PoolMem.reserve
  split
  · next c => exact ⟨s, o, rfl, i, c, rfl, rfl, rfl⟩
  next c =>
  obtain ⟨i, r1, r2, r3, k1, k2, k3, k4⟩ := i
  have hg : o.gpu = false := r2
  rw [hg, if_neg (by simp)] at k4
  rw [hg, if_neg (by simp)]
  obtain ⟨k4, k5⟩ := k4
  obtain ⟨f1, i1⟩ := Inv.freeh (p := o.arr) i
  have key : ∃ l, (if o.arr = none then Res.ok [] else source s.host o.arr o.memsize) = .ok l ∧ L.flatten.map some <+: l := by
    obtain ⟨k5, k6⟩ | ⟨p, k5, k6⟩ := k5
    · have h0 : L.flatten = [] := List.eq_nil_of_length_eq_zero (by omega)
      rw [k5, if_pos rfl, h0]
      exact ⟨[], rfl, List.prefix_refl _⟩
    · obtain ⟨b, b1, ⟨j, b2⟩, b3⟩ := k6
      rw [k5, if_neg (by simp)]
      unfold source
      split
      · next c0 =>
        have h0 : L.flatten = [] := List.eq_nil_of_length_eq_zero (by omega)
        rw [h0]
        exact ⟨[], rfl, List.prefix_refl _⟩
      · simp only [b1]
        rw [if_pos b3]
        refine ⟨_, rfl, ?_⟩
        rw [← b2, List.take_append, List.take_of_length_le (by rw [List.length_map]; omega)]
        exact List.prefix_append _ _
  obtain ⟨l, hl, hpre⟩ := key
  rw [hl, Res.ok_bind, f1, Res.ok_bind]
  have i2 := i1.newh (block n l)
  refine ⟨_, _, rfl, ⟨i2, r1, rfl, r3, ?_⟩, Nat.le_refl _, rfl, rfl, rfl⟩
  refine ⟨k1, by dsimp only; omega, k3, ?_⟩
  dsimp only
  rw [if_neg (by simp)]
  refine ⟨k4, Or.inr ⟨_, rfl, block n l, ?_, ?_, ?_⟩⟩
  · rw [List.getElem?_append_right (Nat.le_refl _), Nat.sub_self]; rfl
  · exact hpre.trans (List.prefix_append _ _)
  · unfold block
    simp only [List.length_append, List.length_replicate]
    omega

/-- Writing to a block that is held. -/
theorem Held.write {o : Obj} {L L' : List (List α)} {C : Option (List (List α))} (i : Held s g o L C) (off : Nat) (v : List α) (A B : List α)
    (hL : L.flatten.take off = A) (hA : A.length = off) (hL' : L'.flatten = A ++ v ++ B) (hB : L.flatten.drop (off + v.length) = B) (hm : off + v.length ≤ o.memsize)
    (d' : Dir) (hd : DirOk d' L') (t' : Nat) (ht : t' = L'.flatten.length) (htm : t' ≤ o.memsize) :
    ∃ h', PoolMem.write s.host o.arr off v = .ok h' ∧ Held { s with host := h' } g { o with dir := d', tail := t' } L' C := by
  obtain ⟨i, r1, r2, r3, k1, k2, k3, k4⟩ := i
  have hg : o.gpu = false := r2
  rw [hg, if_neg (by simp)] at k4
  obtain ⟨k4, k5⟩ := k4
  have hsame : v = [] → L'.flatten = L.flatten := by
    intro c
    subst c
    rw [hL', ← hL, ← hB, List.append_nil, List.length_nil, Nat.add_zero, List.take_append_drop]
  unfold PoolMem.write
  obtain ⟨k5, k6⟩ | ⟨p, k5, k6⟩ := k5
  · have hv : v = [] := List.eq_nil_of_length_eq_zero (by omega)
    rw [if_pos hv]
    refine ⟨_, rfl, i, r1, r2, r3, ht, htm, hd, ?_⟩
    dsimp only
    rw [hg, if_neg (by simp)]
    exact ⟨k4, Or.inl ⟨k5, k6⟩⟩
  · split
    · next c =>
      refine ⟨_, rfl, i, r1, r2, r3, ht, htm, hd, ?_⟩
      dsimp only
      rw [hg, if_neg (by simp)]
      refine ⟨k4, Or.inr ⟨p, k5, ?_⟩⟩
      obtain ⟨b, b1, b2, b3⟩ := k6
      exact ⟨b, b1, by rw [hsame c]; exact b2, b3⟩
    · next c =>
      obtain ⟨b, b1, ⟨j, b2⟩, b3⟩ := k6
      simp only [k5, b1]
      rw [if_pos (by omega)]
      have i1 : Inv s g (p :: []) (dp o ++ []) := by
        refine i.permh ?_
        rw [hp, k5]
        exact List.Perm.refl _
      have i2 := i1.seth (b.take off ++ v.map some ++ b.drop (off + v.length))
      have hlt := i1.own.lt (p := p) (by simp)
      refine ⟨_, rfl, i2.permh (List.Perm.refl _), r1, r2, r3, ht, htm, hd, ?_⟩
      dsimp only
      rw [hg, if_neg (by simp)]
      refine ⟨k4, Or.inr ⟨p, rfl, _, List.getElem?_set_self hlt, ?_, ?_⟩⟩
      · have hoff : off ≤ L.flatten.length := by
          rw [← hA, ← hL, List.length_take]
          omega
        have e1 : b.take off = A.map some := by
          rw [← b2, List.take_append_of_le_length (by rw [List.length_map]; omega), ← List.map_take, hL]
        have e2 : B.map some <+: b.drop (off + v.length) := by
          rw [← hB, List.map_drop, ← b2, List.drop_append]
          exact List.prefix_append _ _
        rw [hL', List.map_append, List.map_append, e1]
        exact List.prefix_append_right_inj _ |>.mpr e2
      · simp only [List.length_append, List.length_map, List.length_take, List.length_drop]
        omega

theorem reserve_objs (s : State α) (x : List (Option Obj)) (o : Obj) (n : Nat) (s' : State α) (o' : Obj) (h : reserve { s with objs := x } o n = .ok (s', o')) :
    reserve s o n = .ok ({ s' with objs := s.objs }, o') := by
  unfold reserve at h ⊢
  split
  · next c =>
    rw [if_pos c] at h
    obtain ⟨rfl, rfl⟩ := Prod.mk.inj (Res.ok.inj h)
    rfl
  · next c =>
    rw [if_neg c] at h
    split
    · next c2 =>
      rw [if_pos c2] at h
      obtain ⟨l, h1, h⟩ := Res.bind_eq_ok.mp h
      obtain ⟨d, h2, h⟩ := Res.bind_eq_ok.mp h
      obtain ⟨rfl, rfl⟩ := Prod.mk.inj (Res.ok.inj h)
      dsimp only at h1 h2
      rw [h1, Res.ok_bind, h2]
      rfl
    · next c2 =>
      rw [if_neg c2] at h
      obtain ⟨l, h1, h⟩ := Res.bind_eq_ok.mp h
      obtain ⟨d, h2, h⟩ := Res.bind_eq_ok.mp h
      obtain ⟨rfl, rfl⟩ := Prod.mk.inj (Res.ok.inj h)
      dsimp only at h1 h2
      rw [h1, Res.ok_bind, h2]
      rfl

theorem push_ok (i : Inv s g [] []) (v : Nat) (l : List α) : Agrees s g (.push v l) := by
  unfold Agrees
  rw [PoolRef.step]
  obtain h | ⟨L, C, h, e⟩ := ref_hosted g v
  · rw [h]; exact trivial
  rw [e, Res.ok_bind]
  obtain ⟨o, ho, hr⟩ := i.look h
  have hv := (List.getElem?_eq_some_iff.mp ho).1
  dsimp only
  rw [step, push, look_eq ho, Res.ok_bind]
  have k1 : o.tail = L.flatten.length := hr.lists.1
  have H : Held { s with objs := s.objs.set v none } (g.set v none) o L C := ⟨i.take ho, hr⟩
  have key : ∃ s' o', (if o.memsize < o.tail + l.length then reserve s o (max (2 * o.memsize) (o.tail + l.length)) else .ok (s, o)) = .ok (s', o') ∧
      Held { s' with objs := s'.objs.set v none } (g.set v none) o' L C ∧ o.tail + l.length ≤ o'.memsize ∧ s'.objs = s.objs ∧ o'.dir = o.dir ∧ o'.tail = o.tail := by
    split
    · obtain ⟨s', o', q1, q2, q3, q4, q5, q6⟩ := H.reserve (max (2 * o.memsize) (o.tail + l.length)) (by omega)
      have hs := reserve_objs _ _ _ _ _ _ q1
      refine ⟨_, _, hs, ?_, by omega, rfl, q5, q6⟩
      dsimp only
      have : ({ s' with objs := s.objs.set v none } : State α) = s' := by
        dsimp only at q4
        rw [← q4]
      rw [this]
      exact q2
    · next c => exact ⟨s, o, rfl, H, by omega, rfl, rfl, rfl⟩
  obtain ⟨s', o', q1, q2, q3, q4, q5, q6⟩ := key
  rw [q1, Res.ok_bind]
  dsimp only
  obtain ⟨d, d1, d2⟩ := hr.lists.2.2.1.push l
  obtain ⟨h', w1, w2⟩ := q2.write (L' := L ++ [l]) o'.tail l L.flatten [] (by rw [q6, k1, List.take_length]) (by rw [q6, k1]) (by simp)
    (by rw [q6, k1]; exact List.drop_of_length_le (by omega)) (by omega) d d2 (o'.tail + l.length) (by rw [q6, k1]; simp) (by omega)
  dsimp only at w1
  rw [w1, Res.ok_bind, q5, q6, k1, d1]
  refine ⟨_, rfl, ?_⟩
  have i3 := Inv.put (v := v) w2.inv (by dsimp only; rw [List.getElem?_set_self (by rw [q4]; exact hv)]) w2.rep
  dsimp only at i3
  rw [List.set_set, List.set_set, q6, k1] at i3
  exact i3

theorem set_ok (i : Inv s g [] []) (v k j : Nat) (a : α) : Agrees s g (.set v k j a) := by
  unfold Agrees
  rw [PoolRef.step]
  obtain h | ⟨L, C, h, e⟩ := ref_hosted g v
  · rw [h]; exact trivial
  rw [e, Res.ok_bind]
  obtain ⟨o, ho, hr⟩ := i.look h
  have hn : o.dir.n = L.length := hr.lists.2.2.1.1
  have hv := (List.getElem?_eq_some_iff.mp ho).1
  dsimp only
  rw [step, set, look_eq ho, Res.ok_bind, hn]
  cases hl : L[k]? with
  | none =>
    have : L.length ≤ k := List.getElem?_eq_none_iff.mp hl
    dsimp only
    rw [decide_eq_false (by omega), Res.assrt_false]
    rfl
  | some l =>
    have hk : k < L.length := (List.getElem?_eq_some_iff.mp hl).1
    dsimp only
    rw [decide_eq_true hk, Res.assrt_true, Res.ok_bind, hr.lists.2.2.1.row hl, Res.ok_bind]
    dsimp only
    by_cases hj : j < l.length
    · rw [if_pos hj, decide_eq_true hj, Res.assrt_true, Res.ok_bind]
      have k1 : o.tail = L.flatten.length := hr.lists.1
      have k2 : o.tail ≤ o.memsize := hr.lists.2.1
      have H : Held { s with objs := s.objs.set v none } (g.set v none) o L C := ⟨i.take ho, hr⟩
      have hf := flatten_split L k l hl
      have hf' := flatten_set L k l (l.set j a) hl
      have hlen := congrArg List.length hf
      simp only [List.length_append] at hlen
      have e1 : l.take j ++ (l[j] :: l.drop (j + 1)) = l := by rw [List.getElem_cons_drop, List.take_append_drop]
      have e3 : L.flatten = ((L.take k).flatten ++ l.take j) ++ (l[j] :: (l.drop (j + 1) ++ (L.drop (k + 1)).flatten)) := by
        rw [hf]
        conv_lhs => rw [← e1]
        simp only [List.append_assoc, List.cons_append]
      have hA : ((L.take k).flatten ++ l.take j).length = (L.take k).flatten.length + j := by
        rw [List.length_append, List.length_take]
        omega
      obtain ⟨h', w1, w2⟩ := H.write (L' := L.set k (l.set j a)) ((L.take k).flatten.length + j) [a] ((L.take k).flatten ++ l.take j) (l.drop (j + 1) ++ (L.drop (k + 1)).flatten)
        (by rw [e3, List.take_left' hA]) hA (by rw [hf', List.set_eq_take_append_cons_drop, if_pos hj]; simp)
        (by
          rw [e3, List.drop_append, List.drop_of_length_le (by rw [hA]; simp), hA, List.length_singleton, Nat.add_sub_cancel_left]
          rfl)
        (by rw [List.length_singleton]; omega) o.dir
        (by
          obtain ⟨n1, n2 | ⟨n2, n3, n4⟩⟩ := hr.lists.2.2.1
          · exact ⟨by rw [n1, List.length_set], Or.inl (by rw [n2, rowsFrom_set 0 L k l _ hl List.length_set])⟩
          · subst n3; simp at hl)
        o.tail (by rw [k1, hf', hf]; simp) k2
      dsimp only at w1
      rw [w1]
      refine ⟨_, rfl, ?_⟩
      have i3 := Inv.put (v := v) w2.inv (by dsimp only; rw [List.getElem?_set_self hv]) w2.rep
      dsimp only at i3
      rw [List.set_set, List.set_set] at i3
      have e2 : s.objs.set v (some o) = s.objs := by
        obtain ⟨h1, h2⟩ := List.getElem?_eq_some_iff.mp ho
        rw [← h2, List.set_getElem_self]
      have e4 : ({ o with dir := o.dir, tail := o.tail } : Obj) = o := rfl
      rw [e2] at i3
      exact i3
    · rw [if_neg hj, decide_eq_false hj, Res.assrt_false]
      rfl

theorem CloneOk.append {d : Heap α} {q : Option (Nat × List (Option (Nat × Nat)))} {C : Option (List (List α))} (h : CloneOk d q C) (b : Option (List (Option α))) :
    CloneOk (d ++ [b]) q C := by
  match q, C, h with
  | none, none, h => exact h
  | some q, some C, h =>
    obtain ⟨⟨c, h1, h2⟩, h3⟩ := h
    exact ⟨⟨c, by rw [List.getElem?_append_left (List.getElem?_eq_some_iff.mp h1).1]; exact h1, h2⟩, h3⟩

/-- The arrays of a variable are released. -/
theorem Inv.strip (i : Inv s g [] []) {v : Nat} {o : Obj} {r : PoolRef.Pool α} (ho : s.objs[v]? = some (some o)) (hr : Rep s.host s.dev o r) :
    free s.host o.arr = .ok (PoolMem.freed s.host o.arr) ∧ free s.dev o.arrg = .ok (PoolMem.freed s.dev o.arrg) ∧
    Inv { host := PoolMem.freed s.host o.arr, dev := PoolMem.freed s.dev o.arrg, objs := s.objs.set v (some { o with arr := none, arrg := none }) }
      (g.set v (some ⟨none, r.gpu, r.cache⟩)) [] [] := by
  have hw := (List.getElem?_eq_some_iff.mp ho).1
  have i1 := i.take ho
  have i1' := i1.permd (ed' := dp { o with arr := none, arrg := none } ++ o.arrg.toList) (by
    rw [List.append_nil]
    exact List.perm_append_comm)
  have i2 := Inv.put (v := v) (o := { o with arr := none, arrg := none }) (r := ⟨none, r.gpu, r.cache⟩) i1'
    (List.getElem?_set_self hw) ⟨hr.owns, hr.gpu, hr.clone, rfl, rfl⟩
  dsimp only at i2
  rw [List.set_set, List.set_set] at i2
  obtain ⟨f1, i3⟩ := Inv.freeh (p := o.arr) (eh := []) i2
  obtain ⟨f2, i4⟩ := Inv.freed (p := o.arrg) (ed := []) (i3.permd (List.Perm.of_eq (List.append_nil _).symm))
  exact ⟨f1, f2, i4⟩

/-- New arrays on the host for a variable without arrays. -/
theorem Inv.fillh (i : Inv s g [] []) {v : Nat} {o : Obj} {r : PoolRef.Pool α} (ho : s.objs[v]? = some (some o)) (hr : Rep s.host s.dev o r) (ha : o.arr = none)
    (hb : o.arrg = none) (L : List (List α)) (d : Dir) (hd : DirOk d L) :
    Inv { s with host := s.host ++ [some (block L.flatten.length (L.flatten.map some))],
                 objs := s.objs.set v (some ⟨some s.host.length, none, L.flatten.length, L.flatten.length, false, false, o.clone, d⟩) }
      (g.set v (some ⟨some L, false, r.cache⟩)) [] [] := by
  have hw := (List.getElem?_eq_some_iff.mp ho).1
  have i1 := (i.take ho).newh (block L.flatten.length (L.flatten.map some))
  have i2 := Inv.put (v := v) (o := ⟨some s.host.length, none, L.flatten.length, L.flatten.length, false, false, o.clone, d⟩) (r := ⟨some L, false, r.cache⟩) (eh := []) (ed := [])
    (i1.permh (eh' := [s.host.length]) (by rw [hp, ha]; exact List.Perm.refl _) |>.permd (by rw [dp, hb]; exact List.Perm.refl _))
    (List.getElem?_set_self hw) ⟨rfl, rfl, hr.clone, rfl, Nat.le_refl _, hd, rfl, Or.inr ⟨_, rfl, blk_new _ _ _⟩⟩
  dsimp only at i2
  rw [List.set_set, List.set_set] at i2
  exact i2

/-- New arrays on the GPU for a variable without arrays. -/
theorem Inv.filld (i : Inv s g [] []) {v : Nat} {o : Obj} {r : PoolRef.Pool α} (ho : s.objs[v]? = some (some o)) (hr : Rep s.host s.dev o r) (ha : o.arr = none)
    (hb : o.arrg = none) (L : List (List α)) (d : Dir) (hd : DirOk d L) :
    Inv { s with dev := s.dev ++ [some (block L.flatten.length (L.flatten.map some))],
                 objs := s.objs.set v (some ⟨none, some s.dev.length, L.flatten.length, L.flatten.length, true, false, o.clone, d⟩) }
      (g.set v (some ⟨some L, true, r.cache⟩)) [] [] := by
  have hw := (List.getElem?_eq_some_iff.mp ho).1
  have i1 := (i.take ho).newd (block L.flatten.length (L.flatten.map some))
  have i2 := Inv.put (v := v) (o := ⟨none, some s.dev.length, L.flatten.length, L.flatten.length, true, false, o.clone, d⟩) (r := ⟨some L, true, r.cache⟩) (eh := []) (ed := [])
    (i1.permh (eh' := []) (by rw [hp, ha]; exact List.Perm.refl _) |>.permd (by rw [dp, hb]; exact List.Perm.refl _))
    (List.getElem?_set_self hw) ⟨rfl, rfl, hr.clone.append _, rfl, Nat.le_refl _, hd, rfl, _, rfl, blk_new _ _ _⟩
  dsimp only at i2
  rw [List.set_set, List.set_set] at i2
  exact i2

/-- The source of a copy of a pool on the GPU. -/
theorem sourceDev {h d : Heap α} {o : Obj} {L : List (List α)} (hl : ListsOk h d o (some L)) (hg : o.gpu = true) :
    source d o.arrg o.tail = .ok (L.flatten.map some) := by
  obtain ⟨k1, k2, k3, k4⟩ := hl
  rw [hg, if_pos rfl] at k4
  obtain ⟨k4, p, k5, k6⟩ := k4
  rw [k5, k1]
  exact k6.source

theorem assign_ok (i : Inv s g [] []) (v w : Nat) : Agrees s g (.assign v w) := by
  unfold Agrees
  rw [PoolRef.step]
  obtain h | ⟨r, h, e⟩ := ref_look g v
  · rw [h]; exact trivial
  rw [e, Res.ok_bind]
  obtain h' | ⟨L, b, C, h', e'⟩ := ref_full g w
  · rw [h']; exact trivial
  rw [e', Res.ok_bind]
  dsimp only
  by_cases c : v = w
  · rw [if_pos c]; exact trivial
  rw [if_neg c]
  obtain ⟨o, ho, hr⟩ := i.look h
  obtain ⟨x, hx, hxr⟩ := i.look h'
  obtain ⟨f1, f2, i1⟩ := i.strip ho hr
  have hw := (List.getElem?_eq_some_iff.mp ho).1
  obtain ⟨x', hx', hxr'⟩ := i1.look (v := w) (r := ⟨some L, b, C⟩) (by rw [List.getElem?_set_ne c]; exact h')
  dsimp only at hx' hxr'
  rw [List.getElem?_set_ne c, hx] at hx'
  obtain rfl := Option.some.inj (Option.some.inj hx')
  obtain ⟨o', ho', hr'⟩ := i1.look (v := v) (r := ⟨none, r.gpu, r.cache⟩) (List.getElem?_set_self (by rw [← i.len]; exact hw))
  have ho2 := ho'
  dsimp only at ho2
  rw [List.getElem?_set_self hw] at ho2
  obtain rfl := Option.some.inj (Option.some.inj ho2)
  obtain ⟨d, hd, hd1, _⟩ := hxr.lists.2.2.1.copy
  have hg : x.gpu = b := hxr.gpu
  have ht : x.tail = L.flatten.length := hxr.lists.1
  rw [step, assign, look_eq ho, Res.ok_bind, look_eq hx, Res.ok_bind, hr.owns, if_neg (by simp), f1, Res.ok_bind, if_neg (by simp), f2, Res.ok_bind, if_neg c, hd, Res.ok_bind]
  dsimp only
  cases b with
  | true =>
    rw [hg, if_pos rfl, if_neg c, sourceDev hxr'.lists hg, Res.ok_bind, ht]
    refine ⟨_, rfl, ?_⟩
    have i2 := i1.filld ho' hr' rfl rfl L d hd1
    dsimp only at i2
    rw [List.set_set, List.set_set] at i2
    exact i2
  | false =>
    rw [hg, if_neg (by simp), if_neg c, sourceHost hxr'.lists hg, Res.ok_bind, ht]
    refine ⟨_, rfl, ?_⟩
    have i2 := i1.fillh ho' hr' rfl rfl L d hd1
    dsimp only at i2
    rw [List.set_set, List.set_set] at i2
    exact i2

theorem toDevice_ok (i : Inv s g [] []) (v : Nat) (b : Bool) : Agrees s g (.toDevice v b) := by
  unfold Agrees
  rw [PoolRef.step]
  obtain h | ⟨L, b', C, h, e⟩ := ref_full g v
  · rw [h]; exact trivial
  rw [e, Res.ok_bind]
  dsimp only
  obtain ⟨o, ho, hr⟩ := i.look h
  have hg : o.gpu = b' := hr.gpu
  have ht : o.tail = L.flatten.length := hr.lists.1
  rw [step, toDevice, look_eq ho, Res.ok_bind]
  by_cases c : o.gpu = b
  · rw [if_pos c]
    refine ⟨s, rfl, ?_⟩
    have : g.set v (some ⟨some L, b, C⟩) = g := by
      obtain ⟨h1, h2⟩ := List.getElem?_eq_some_iff.mp h
      rw [← c, hg, ← h2, List.set_getElem_self]
    rw [this]
    exact i
  rw [if_neg c]
  obtain ⟨f1, f2, i1⟩ := i.strip ho hr
  have hw := (List.getElem?_eq_some_iff.mp ho).1
  obtain ⟨o', ho', hr'⟩ := i1.look (v := v) (r := ⟨none, b', C⟩) (List.getElem?_set_self (by rw [← i.len]; exact hw))
  have ho2 := ho'
  dsimp only at ho2
  rw [List.getElem?_set_self hw] at ho2
  obtain rfl := Option.some.inj (Option.some.inj ho2)
  cases b with
  | true =>
    have hg' : o.gpu = false := by simpa using c
    rw [if_pos rfl, sourceHost hr.lists hg', Res.ok_bind, f2, Res.ok_bind, f1, Res.ok_bind, ht]
    refine ⟨_, rfl, ?_⟩
    have i2 := i1.filld ho' hr' rfl rfl L o.dir hr.lists.2.2.1
    dsimp only at i2
    rw [List.set_set, List.set_set] at i2
    have hv := hr.owns
    have hm : o = { o with isView := false, tail := L.flatten.length } := by rw [← hv, ← ht]
    rw [hm]
    exact i2
  | false =>
    have hg' : o.gpu = true := by simpa using c
    rw [if_neg (by simp), sourceDev hr.lists hg', Res.ok_bind, f1, Res.ok_bind, f2, Res.ok_bind, ht]
    refine ⟨_, rfl, ?_⟩
    have i2 := i1.fillh ho' hr' rfl rfl L o.dir hr.lists.2.2.1
    dsimp only at i2
    rw [List.set_set, List.set_set] at i2
    have hv := hr.owns
    have hm : o = { o with isView := false, tail := L.flatten.length } := by rw [← hv, ← ht]
    rw [hm]
    exact i2

theorem moveAssign_ok (i : Inv s g [] []) (v w : Nat) : Agrees s g (.moveAssign v w) := by
  unfold Agrees
  rw [PoolRef.step]
  obtain h | ⟨r, h, e⟩ := ref_look g v
  · rw [h]; exact trivial
  rw [e, Res.ok_bind]
  obtain h' | ⟨L, b, C, h', e'⟩ := ref_full g w
  · rw [h']; exact trivial
  rw [e', Res.ok_bind]
  dsimp only
  by_cases c : v = w
  · rw [if_pos c]; exact trivial
  rw [if_neg c]
  obtain ⟨o, ho, hr⟩ := i.look h
  obtain ⟨x, hx, hxr⟩ := i.look h'
  obtain ⟨f1, f2, i1⟩ := i.strip ho hr
  have hw := (List.getElem?_eq_some_iff.mp ho).1
  have hww := (List.getElem?_eq_some_iff.mp hx).1
  obtain ⟨x', hx', hxr'⟩ := i1.look (v := w) (r := ⟨some L, b, C⟩) (by rw [List.getElem?_set_ne c]; exact h')
  have hx2 := hx'
  dsimp only at hx2 hxr'
  rw [List.getElem?_set_ne c, hx] at hx2
  obtain rfl := Option.some.inj (Option.some.inj hx2)
  rw [step, moveAssign, look_eq ho, Res.ok_bind, look_eq hx, Res.ok_bind, hr.owns, if_neg (by simp), f1, Res.ok_bind, if_neg (by simp), f2, Res.ok_bind, if_neg c]
  refine ⟨_, rfl, ?_⟩
  have i2 := i1.take hx'
  have i2' := i2.permd (ed' := dp { x with arr := none, arrg := none, dir := x.dir.moved } ++ x.arrg.toList) (by
    rw [List.append_nil]
    exact List.perm_append_comm)
  have i3 := Inv.put (v := w) (o := { x with arr := none, arrg := none, dir := x.dir.moved }) (r := ⟨none, b, C⟩) i2'
    (List.getElem?_set_self (by dsimp only; rw [List.length_set]; exact hww)) ⟨hxr'.owns, hxr'.gpu, hxr'.clone, rfl, rfl⟩
  dsimp only at i3
  rw [List.set_set, List.set_set] at i3
  obtain ⟨o', ho', hr'⟩ := i3.look (v := v) (r := ⟨none, r.gpu, r.cache⟩) (by
    rw [List.getElem?_set_ne (Ne.symm c), List.getElem?_set_self (by rw [← i.len]; exact hw)])
  have ho2 := ho'
  dsimp only at ho2
  rw [List.getElem?_set_ne (Ne.symm c), List.getElem?_set_self hw] at ho2
  obtain rfl := Option.some.inj (Option.some.inj ho2)
  have i4 := i3.take ho'
  have i4' := (i4.permh (eh' := hp { x with clone := o.clone } ++ []) (List.Perm.refl _)).permd (ed' := dp { x with clone := o.clone } ++ []) (by
    show ((o.clone.map Prod.fst).toList ++ x.arrg.toList).Perm _
    rw [List.append_nil]
    exact List.perm_append_comm)
  have i5 := Inv.put (v := v) (o := { x with clone := o.clone }) (r := ⟨some L, b, r.cache⟩) i4'
    (List.getElem?_set_self (by dsimp only; rw [List.length_set, List.length_set]; exact hw)) ⟨hxr'.owns, hxr'.gpu, hr'.clone, hxr'.lists⟩
  dsimp only at i5
  rw [List.set_set, List.set_set, List.set_comm _ _ c, List.set_set, List.set_comm _ _ c, List.set_set] at i5
  exact i5

theorem read_rows {h : Heap α} {p m : Nat} : ∀ (B A : List (List α)) (acc : List (List α)), Blk h p (A ++ B) m →
    Res.forM (rowsFrom A.flatten.length B) acc (readRow h p) = .ok (acc ++ B)
  | [], A, acc, _ => by rw [rowsFrom, Res.forM_nil, List.append_nil]
  | l :: B, A, acc, b => by
    have hl : (A ++ l :: B)[A.length]? = some l := by
      rw [List.getElem?_append_right (Nat.le_refl _), Nat.sub_self]
      rfl
    have hr := b.read hl
    rw [List.take_left' rfl] at hr
    rw [rowsFrom, Res.forM_cons, readRow, hr, Res.ok_bind, Res.ok_bind]
    have ih := read_rows B (A ++ [l]) (acc ++ [l]) (by rw [List.append_assoc]; exact b)
    rw [List.flatten_append, List.length_append, List.flatten_cons, List.flatten_nil, List.append_nil] at ih
    rw [ih, List.append_assoc]
    rfl

theorem gpuArrs_ok (i : Inv s g [] []) (v : Nat) : Agrees s g (.gpuArrs v) := by
  unfold Agrees
  rw [PoolRef.step]
  obtain h | ⟨L, b, C, h, e⟩ := ref_full g v
  · rw [h]; exact trivial
  rw [e, Res.ok_bind]
  dsimp only
  obtain ⟨o, ho, hr⟩ := i.look h
  have hg : o.gpu = b := hr.gpu
  have hw := (List.getElem?_eq_some_iff.mp ho).1
  rw [step, gpuArrs, look_eq ho, Res.ok_bind]
  cases b with
  | true =>
    rw [hg, if_pos rfl]
    rfl
  | false =>
    rw [hg, if_neg (by simp), Bool.not_false, Res.assrt_true, Res.ok_bind]
    have hcl := hr.clone
    cases C with
    | some C =>
      cases hq : o.clone with
      | none => rw [hq] at hcl; exact hcl.elim
      | some q =>
        obtain ⟨q, t⟩ := q
        rw [hq] at hcl
        obtain ⟨hb, ht⟩ := hcl
        dsimp only at hb ht
        subst ht
        dsimp only
        rw [Res.ok_bind]
        dsimp only
        have hrd := read_rows C [] [] hb
        rw [List.flatten_nil, List.length_nil, List.nil_append] at hrd
        rw [hrd]
        refine ⟨s, rfl, ?_⟩
        have : g.set v (some ⟨some L, false, some ((some C).getD L)⟩) = g := by
          obtain ⟨h1, h2⟩ := List.getElem?_eq_some_iff.mp h
          rw [Option.getD_some, ← h2, List.set_getElem_self]
        rw [this]
        exact i
    | none =>
      cases hq : o.clone with
      | some q => rw [hq] at hcl; exact hcl.elim
      | none =>
        obtain ⟨d, hd, hd1, hd2⟩ := hr.lists.2.2.1.copy
        have ht : o.tail = L.flatten.length := hr.lists.1
        dsimp only
        rw [hd, Res.ok_bind, sourceHost hr.lists hg, Res.ok_bind, Res.ok_bind, hd2, ht]
        dsimp only [Option.getD_some, Option.getD_none]
        have hrd := read_rows L [] [] (blk_new s.dev L L.flatten.length)
        rw [List.flatten_nil, List.length_nil, List.nil_append] at hrd
        rw [hrd]
        refine ⟨_, rfl, ?_⟩
        have i1 := (i.take ho).newd (block L.flatten.length (L.flatten.map some))
        have hb := blk_new s.dev L L.flatten.length
        have i2 := Inv.put (v := v) (o := { o with clone := some (s.dev.length, rowsFrom 0 L) }) (r := ⟨some L, false, some L⟩) (eh := []) (ed := [])
          ((i1.permh (List.Perm.refl _)).permd (by
            rw [dp, dp, hq]
            simp only [Option.map_none, Option.toList_none, List.append_nil, Option.map_some, Option.toList_some]
            exact (List.perm_append_comm (l₁ := [s.dev.length]))))
          (List.getElem?_set_self hw) (by
            refine ⟨hr.owns, hr.gpu, ⟨?_, rfl⟩, ?_⟩
            · obtain ⟨c, c1, c2, c3⟩ := hb
              exact ⟨c, c1, c2, Nat.zero_le _⟩
            · refine (Rep.congr (h := s.host) (d := s.dev) (r := ⟨some L, false, none⟩) (fun _ _ => rfl) (fun p hp => ?_) hr).lists
              exact List.getElem?_append_left (i.ownd.lt (List.mem_append_right _ (mem_dpo (v := v) (by rw [ho]; exact hp)))))
        dsimp only at i2
        rw [List.set_set, List.set_set, ← ht, hg] at i2
        rw [← ht]
        exact i2

theorem step_ok (i : Inv s g [] []) (c : Cmd α) : Agrees s g c := by
  cases c with
  | make => exact make_ok i
  | push v l => exact push_ok i v l
  | set v k j a => exact set_ok i v k j a
  | get v k => exact get_ok i v k
  | copy w => exact copy_ok i w
  | move w => exact move_ok i w
  | assign v w => exact assign_ok i v w
  | moveAssign v w => exact moveAssign_ok i v w
  | view w => exact trivial
  | toDevice v b => exact toDevice_ok i v b
  | gpuArrs v => exact gpuArrs_ok i v
  | destroy v => exact destroy_ok i v

theorem run_ok (p : List (Cmd α)) {s : State α} {g : List (Option (PoolRef.Pool α))} (i : Inv s g [] []) :
    match PoolRef.run g p with
    | .ub => True
    | .throw => run s p = .throw
    | .ok (g', xs) => ∃ s', run s p = .ok (s', xs) ∧ Inv s' g' [] [] := by
  induction p generalizing s g with
  | nil => exact ⟨s, rfl, i⟩
  | cons c p ih =>
    have h := step_ok i c
    unfold Agrees at h
    rw [PoolRef.run, run]
    cases e : PoolRef.step g c with
    | ub => exact trivial
    | throw =>
      rw [e] at h
      dsimp only at h
      rw [h]
      rfl
    | ok y =>
      obtain ⟨g1, x⟩ := y
      rw [e] at h
      obtain ⟨s1, h1, i1⟩ := h
      rw [h1, Res.ok_bind, Res.ok_bind]
      dsimp only
      have := ih i1
      cases e2 : PoolRef.run g1 p with
      | ub => exact trivial
      | throw =>
        rw [e2] at this
        dsimp only at this
        rw [this]
        rfl
      | ok z =>
        obtain ⟨g2, xs⟩ := z
        rw [e2] at this
        obtain ⟨s2, h2, i2⟩ := this
        rw [h2]
        exact ⟨s2, rfl, i2⟩

theorem start_inv : Inv (start : State α) [] [] [] :=
  ⟨fun _ => trivial, ⟨List.nodup_nil, fun p => by simp [start]⟩, ⟨List.nodup_nil, fun p => by simp [start]⟩⟩

end PoolMem

end Cnine
