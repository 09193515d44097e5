import Verif.Spec.IntMem
import Verif.Lemmas.TwoHeaps
import Verif.Lemmas.PoolMemRead

/-!
# Lemmas on the memory of integer tensors
-/

namespace Cnine

namespace IntMem

open Owner TwoHeaps
open PoolMem (Heap Blk free source write readList block blk_new)

variable {α : Type}

/-- The rows that were sent to the GPU. -/
def CacheOk (d : Heap α) (o : Obj) : Option (List (List α)) → Prop
  | none => o.arrg = none
  | some C => (∀ l ∈ C, l.length = o.k) ∧ ∃ q, o.arrg = some q ∧ Blk d q C 0

/-- The arrays of a tensor. -/
def RowsOk (h d : Heap α) (o : Obj) (r : IntRef.Ten α) : Option (List (List α)) → Prop
  | none => o.arr = none ∧ o.arrg = none
  | some L => o.n = L.length ∧ (∀ l ∈ L, l.length = o.k) ∧ o.n ≤ o.cap ∧
      if o.gpu = true then r.cache = none ∧ ∃ q, o.arrg = some q ∧ Blk d q L (o.cap * o.k)
      else (o.arr = none ∧ o.cap = 0 ∨ ∃ p, o.arr = some p ∧ Blk h p L (o.cap * o.k)) ∧ CacheOk d o r.cache

/-- The object `o` stands for the tensor `r`. -/
structure Rep (h d : Heap α) (o : Obj) (r : IntRef.Ten α) : Prop where
  owns : o.isView = false
  k : o.k = r.k
  pos : 0 < o.k
  gpu : o.gpu = r.gpu
  rows : RowsOk h d o r r.rows

theorem Rep.congr {h h' d d' : Heap α} {o : Obj} {r : IntRef.Ten α} (eh : ∀ p ∈ o.arr.toList, h'[p]? = h[p]?) (ed : ∀ p ∈ o.arrg.toList, d'[p]? = d[p]?) (i : Rep h d o r) :
    Rep h' d' o r := by
  obtain ⟨i1, i2, i2', i3, i4⟩ := i
  refine ⟨i1, i2, i2', i3, ?_⟩
  cases hL : r.rows with
  | none => rw [hL] at i4; exact i4
  | some L =>
    rw [hL] at i4
    obtain ⟨k1, k2, k3, k4⟩ := i4
    refine ⟨k1, k2, k3, ?_⟩
    split
    · next c =>
      rw [if_pos c] at k4
      obtain ⟨k4, q, k5, k6⟩ := k4
      exact ⟨k4, q, k5, k6.congr (ed _ (by simp [k5]))⟩
    · next c =>
      rw [if_neg c] at k4
      obtain ⟨k4, k5⟩ := k4
      constructor
      · obtain k4 | ⟨p, k4, k6⟩ := k4
        · exact Or.inl k4
        · exact Or.inr ⟨p, k4, k6.congr (eh _ (by simp [k4]))⟩
      · cases hC : r.cache with
        | none => rw [hC] at k5; exact k5
        | some C =>
          rw [hC] at k5
          obtain ⟨k5, q, k6, k7⟩ := k5
          exact ⟨k5, q, k6, k7.congr (ed _ (by simp [k6]))⟩

/-- Integer tensors as objects that own blocks. -/
def kind (α : Type) : Kind (List (Option α)) Obj (IntRef.Ten α) where
  hp o := o.arr.toList
  dp o := o.arrg.toList
  Rep := Rep
  congr := Rep.congr

/-- The state stands for `g`. -/
abbrev Stands (s : State α) (g : List (Option (IntRef.Ten α))) : Prop := Inv (kind α) s.host s.dev s.objs g [] []

/-- The machine does what the reference does, unless that makes no promise. -/
def Agrees (s : State α) (g : List (Option (IntRef.Ten α))) (c : Cmd α) : Prop :=
  match IntRef.step g c with
  | .ub => True
  | .throw => step s c = .throw
  | .ok (g', x) => ∃ s', step s c = .ok (s', x) ∧ Stands s' g'

theorem ref_look (g : List (Option (IntRef.Ten α))) (v : Nat) : IntRef.look g v = .ub ∨ ∃ r, g[v]? = some (some r) ∧ IntRef.look g v = .ok r := by
  unfold IntRef.look
  split
  · next r h => exact Or.inr ⟨r, h, rfl⟩
  · exact Or.inl rfl

theorem ref_full (g : List (Option (IntRef.Ten α))) (v : Nat) :
    IntRef.full g v = .ub ∨ ∃ (k : Nat) (L : List (List α)) (b : Bool) (C : Option (List (List α))), g[v]? = some (some ⟨k, some L, b, C⟩) ∧
      IntRef.full g v = .ok (⟨k, some L, b, C⟩, L) := by
  unfold IntRef.full
  obtain h | ⟨⟨k, L, b, C⟩, h, e⟩ := ref_look g v
  · rw [h]; exact Or.inl rfl
  · rw [e, Res.ok_bind]
    cases L with
    | none => exact Or.inl rfl
    | some L => exact Or.inr ⟨k, L, b, C, h, rfl⟩

theorem ref_hosted (g : List (Option (IntRef.Ten α))) (v : Nat) :
    IntRef.hosted g v = .ub ∨ ∃ (k : Nat) (L : List (List α)) (C : Option (List (List α))), g[v]? = some (some ⟨k, some L, false, C⟩) ∧
      IntRef.hosted g v = .ok (⟨k, some L, false, C⟩, L) := by
  unfold IntRef.hosted
  obtain h | ⟨k, L, b, C, h, e⟩ := ref_full g v
  · rw [h]; exact Or.inl rfl
  · rw [e, Res.ok_bind]
    cases b with
    | true => exact Or.inl rfl
    | false => exact Or.inr ⟨k, L, C, h, rfl⟩

theorem look_eq {s : State α} {v : Nat} {o : Obj} (h : s.objs[v]? = some (some o)) : look s v = .ok o := by
  unfold look
  rw [h]

theorem flatten_len {k : Nat} : ∀ {L : List (List α)}, (∀ l ∈ L, l.length = k) → L.flatten.length = L.length * k
  | [], _ => by simp
  | l :: L, h => by
    rw [List.flatten_cons, List.length_append, flatten_len fun x hx => h x (List.mem_cons_of_mem _ hx), h l List.mem_cons_self, List.length_cons, Nat.add_mul]
    omega

theorem take_len {k i : Nat} {L : List (List α)} (h : ∀ l ∈ L, l.length = k) (hi : i ≤ L.length) : (L.take i).flatten.length = i * k := by
  rw [flatten_len fun l hl => h l (List.mem_of_mem_take hl), List.length_take, Nat.min_eq_left hi]

/-- Reading a row of a block. -/
theorem readRow {h : Heap α} {p k m i : Nat} {L : List (List α)} {l : List α} (b : Blk h p L m) (hk : ∀ l ∈ L, l.length = k) (hl : L[i]? = some l) :
    readList h (some p) (i * k) k = .ok l := by
  have := b.read hl
  rw [take_len hk (Nat.le_of_lt (List.getElem?_eq_some_iff.mp hl).1), hk l (List.mem_of_getElem? hl)] at this
  exact this

theorem freeh {h d : Heap α} {objs : List (Option Obj)} {g : List (Option (IntRef.Ten α))} {eh ed : List Nat} {p : Option Nat} (i : Inv (kind α) h d objs g (p.toList ++ eh) ed) :
    free h p = .ok (PoolMem.freed h p) ∧ Inv (kind α) (PoolMem.freed h p) d objs g eh ed := by
  cases p with
  | none => exact ⟨rfl, i⟩
  | some p =>
    obtain ⟨b, hb⟩ := (i.own.2 p).1 (by simp)
    exact ⟨by rw [free, hb]; rfl, Inv.delh i⟩

theorem freed {h d : Heap α} {objs : List (Option Obj)} {g : List (Option (IntRef.Ten α))} {eh ed : List Nat} {p : Option Nat} (i : Inv (kind α) h d objs g eh (p.toList ++ ed)) :
    free d p = .ok (PoolMem.freed d p) ∧ Inv (kind α) h (PoolMem.freed d p) objs g eh ed := by
  cases p with
  | none => exact ⟨rfl, i⟩
  | some p =>
    obtain ⟨b, hb⟩ := (i.ownd.2 p).1 (by simp)
    exact ⟨by rw [free, hb]; rfl, Inv.deld i⟩

/-- The source of a copy of a tensor on the host. -/
theorem sourceHost {h d : Heap α} {o : Obj} {r : IntRef.Ten α} {L : List (List α)} (hr : RowsOk h d o r (some L)) (hg : o.gpu = false) :
    source h o.arr (o.n * o.k) = .ok (L.flatten.map some) := by
  obtain ⟨k1, k2, k3, k4⟩ := hr
  rw [hg, if_neg (by simp)] at k4
  have hf := flatten_len k2
  rw [← k1] at hf
  obtain ⟨⟨k4, k5⟩ | ⟨p, k4, k5⟩, -⟩ := k4
  · have hn : o.n = 0 := by omega
    rw [hn, Nat.zero_mul] at hf ⊢
    rw [List.eq_nil_of_length_eq_zero hf]
    simp [source]
  · rw [k4, ← hf]
    exact k5.source

/-- The source of a copy of a tensor on the GPU. -/
theorem sourceDev {h d : Heap α} {o : Obj} {r : IntRef.Ten α} {L : List (List α)} (hr : RowsOk h d o r (some L)) (hg : o.gpu = true) :
    source d o.arrg (o.n * o.k) = .ok (L.flatten.map some) := by
  obtain ⟨k1, k2, k3, k4⟩ := hr
  rw [hg, if_pos rfl] at k4
  have hf := flatten_len k2
  rw [← k1] at hf
  obtain ⟨k4, q, k5, k6⟩ := k4
  rw [k5, ← hf]
  exact k6.source

variable {s : State α} {g : List (Option (IntRef.Ten α))}

theorem make_ok (i : Stands s g) (k : Nat) : Agrees s g (.make k) := by
  unfold Agrees
  rw [IntRef.step]
  by_cases c : k = 0
  · rw [if_pos c]; exact trivial
  · rw [if_neg c]
    refine ⟨_, rfl, ?_⟩
    refine Inv.add (K := kind α) (eh := []) (ed := []) (o := ⟨none, none, 0, 0, k, false, false⟩) i ?_
    exact ⟨rfl, rfl, by dsimp only; omega, rfl, rfl, by simp, Nat.le_refl _, Or.inl ⟨rfl, rfl⟩, rfl⟩

theorem row_ok (i : Stands s g) (v j : Nat) : Agrees s g (.row v j) := by
  unfold Agrees
  rw [IntRef.step]
  obtain h | ⟨k, L, C, h, e⟩ := ref_hosted g v
  · rw [h]; exact trivial
  rw [e, Res.ok_bind]
  obtain ⟨o, ho, hr⟩ := i.look h
  have hr : Rep s.host s.dev o _ := hr
  dsimp only
  cases hl : L[j]? with
  | none => exact trivial
  | some l =>
    dsimp only
    have hj := (List.getElem?_eq_some_iff.mp hl).1
    rw [step, row, look_eq ho, Res.ok_bind]
    obtain ⟨k1, k2, k3, k4⟩ := hr.rows
    rw [show o.gpu = false from hr.gpu, if_neg (by simp)] at k4
    obtain ⟨⟨k4, k5⟩ | ⟨p, k4, k5⟩, -⟩ := k4
    · omega
    · rw [k4, readRow k5 k2 hl]
      exact ⟨s, rfl, i⟩

theorem copy_ok (i : Stands s g) (w : Nat) : Agrees s g (.copy w) := by
  unfold Agrees
  rw [IntRef.step]
  obtain h | ⟨k, L, b, C, h, e⟩ := ref_full g w
  · rw [h]; exact trivial
  rw [e, Res.ok_bind]
  obtain ⟨o, ho, hr⟩ := i.look h
  have hr : Rep s.host s.dev o _ := hr
  have hg : o.gpu = b := hr.gpu
  have hk : o.k = k := hr.k
  obtain ⟨k1, k2, k3, k4⟩ := hr.rows
  have hf := flatten_len k2
  rw [← k1] at hf
  dsimp only
  rw [step, copy, look_eq ho, Res.ok_bind]
  cases b with
  | true =>
    rw [hg, if_pos rfl, sourceDev hr.rows hg, Res.ok_bind]
    refine ⟨_, rfl, ?_⟩
    refine Inv.add (K := kind α) (eh := []) (ed := []) (o := ⟨none, some s.dev.length, o.n, o.n, o.k, true, false⟩) (i.newd _) ?_
    exact ⟨rfl, hk, hr.pos, rfl, k1, k2, Nat.le_refl _, rfl, _, rfl, blk_new _ _ _⟩
  | false =>
    rw [hg, if_neg (by simp), sourceHost hr.rows hg, Res.ok_bind]
    refine ⟨_, rfl, ?_⟩
    refine Inv.add (K := kind α) (eh := []) (ed := []) (o := ⟨some s.host.length, none, o.n, o.n, o.k, false, false⟩) (i.newh _) ?_
    exact ⟨rfl, hk, hr.pos, rfl, k1, k2, Nat.le_refl _, Or.inr ⟨_, rfl, blk_new _ _ _⟩, rfl⟩

theorem move_ok (i : Stands s g) (w : Nat) : Agrees s g (.move w) := by
  unfold Agrees
  rw [IntRef.step]
  obtain h | ⟨k, L, b, C, h, e⟩ := ref_full g w
  · rw [h]; exact trivial
  rw [e, Res.ok_bind]
  obtain ⟨o, ho, hr⟩ := i.look h
  have hr : Rep s.host s.dev o _ := hr
  dsimp only
  rw [step, move, look_eq ho]
  refine ⟨_, rfl, ?_⟩
  have hw := (List.getElem?_eq_some_iff.mp ho).1
  have i2 := Inv.back (K := kind α) (eh := o.arr.toList ++ []) (ed := o.arrg.toList ++ []) (o := { o with arr := none, arrg := none, cap := 0 }) (r := ⟨k, none, b, none⟩) (i.take ho) hw ⟨hr.owns, hr.k, hr.pos, hr.gpu, rfl, rfl⟩
  exact Inv.add (K := kind α) (o := o) i2 ⟨hr.owns, hr.k, hr.pos, hr.gpu, hr.rows⟩

theorem destroy_ok (i : Stands s g) (v : Nat) : Agrees s g (.destroy v) := by
  unfold Agrees
  rw [IntRef.step]
  obtain h | ⟨r, h, e⟩ := ref_look g v
  · rw [h]; exact trivial
  rw [e, Res.ok_bind]
  obtain ⟨o, ho, hr⟩ := i.look h
  have hr : Rep s.host s.dev o _ := hr
  dsimp only
  obtain ⟨f1, i2⟩ := freeh (p := o.arr) (i.take ho)
  obtain ⟨f2, i3⟩ := freed (p := o.arrg) i2
  rw [step, destroy, look_eq ho, Res.ok_bind, hr.owns, if_neg (by simp), f1, Res.ok_bind, f2]
  exact ⟨_, rfl, i3⟩

/-- The arrays of a variable are released. -/
theorem strip (i : Stands s g) {v : Nat} {o : Obj} {r : IntRef.Ten α} (ho : s.objs[v]? = some (some o)) (hr : Rep s.host s.dev o r) :
    free s.host o.arr = .ok (PoolMem.freed s.host o.arr) ∧ free s.dev o.arrg = .ok (PoolMem.freed s.dev o.arrg) ∧
    Inv (kind α) (PoolMem.freed s.host o.arr) (PoolMem.freed s.dev o.arrg) (s.objs.set v (some { o with arr := none, arrg := none })) (g.set v (some ⟨r.k, none, r.gpu, none⟩)) [] [] := by
  have hw := (List.getElem?_eq_some_iff.mp ho).1
  obtain ⟨f1, i2⟩ := freeh (p := o.arr) (i.take ho)
  obtain ⟨f2, i3⟩ := freed (p := o.arrg) i2
  exact ⟨f1, f2, Inv.back (K := kind α) (o := { o with arr := none, arrg := none }) (r := ⟨r.k, none, r.gpu, none⟩) i3 hw ⟨hr.owns, hr.k, hr.pos, hr.gpu, rfl, rfl⟩⟩

theorem assign_ok (i : Stands s g) (v w : Nat) : Agrees s g (.assign v w) := by
  unfold Agrees
  rw [IntRef.step]
  obtain h | ⟨r, h, e⟩ := ref_look g v
  · rw [h]; exact trivial
  rw [e, Res.ok_bind]
  obtain h' | ⟨k, L, b, C, h', e'⟩ := ref_full g w
  · rw [h']; exact trivial
  rw [e', Res.ok_bind]
  dsimp only
  by_cases c : v = w
  · rw [if_pos c]; exact trivial
  rw [if_neg c]
  by_cases hc : r.rows = none ∨ (r.gpu = false ∧ r.cache = none ∧ b = false)
  case neg => rw [if_neg hc]; exact trivial
  rw [if_pos hc]
  obtain ⟨o, ho, hr⟩ := i.look h
  have hr : Rep s.host s.dev o _ := hr
  obtain ⟨x, hx, hxr⟩ := i.look h'
  have hxr : Rep s.host s.dev x _ := hxr
  obtain ⟨f1, f2, i1⟩ := strip i ho hr
  have hw := (List.getElem?_eq_some_iff.mp ho).1
  obtain ⟨x', hx', hxr'⟩ := i1.look (v := w) (r := ⟨k, some L, b, C⟩) (by rw [List.getElem?_set_ne c]; exact h')
  rw [List.getElem?_set_ne c, hx] at hx'
  obtain rfl := Option.some.inj (Option.some.inj hx')
  have hxr' : Rep (PoolMem.freed s.host o.arr) (PoolMem.freed s.dev o.arrg) x _ := hxr'
  have i2 := i1.take (v := v) (List.getElem?_set_self hw)
  rw [List.set_set, List.set_set] at i2
  have hg : x.gpu = b := hxr.gpu
  have hk : x.k = k := hxr.k
  obtain ⟨k1, k2, k3, k4⟩ := hxr.rows
  rw [step, assign, look_eq ho, Res.ok_bind, look_eq hx, Res.ok_bind, hr.owns, if_neg (by simp), f1, Res.ok_bind, if_neg (by simp), f2, Res.ok_bind]
  have hnull : (r.rows = none → o.arr = none ∧ o.arrg = none) := by
    intro c1
    have := hr.rows
    rw [c1] at this
    exact this
  cases b with
  | true =>
    rw [hg, if_pos rfl, if_neg c, sourceDev hxr'.rows hg, Res.ok_bind]
    refine ⟨_, rfl, ?_⟩
    have c1 := hc.resolve_right fun z => by cases z.2.2
    rw [(hnull c1).1]
    rw [(hnull c1).1] at i2
    exact Inv.back (K := kind α) (o := ⟨none, some _, x.n, x.n, x.k, true, false⟩) (r := ⟨k, some L, true, none⟩) (i2.newd _) hw
      ⟨rfl, hk, hxr.pos, rfl, k1, k2, Nat.le_refl _, rfl, _, rfl, blk_new _ _ _⟩
  | false =>
    rw [hg, if_neg (by simp), if_neg c, sourceHost hxr'.rows hg, Res.ok_bind]
    refine ⟨_, rfl, ?_⟩
    have harrg : o.arrg = none := by
      obtain c1 | ⟨c1, c2, c3⟩ := hc
      · exact (hnull c1).2
      · have := hr.rows
        cases hL : r.rows with
        | none => exact (hnull hL).2
        | some M =>
          rw [hL] at this
          obtain ⟨_, _, _, m4⟩ := this
          rw [show o.gpu = false from hr.gpu.trans c1, if_neg (by simp), c2] at m4
          exact m4.2
    rw [harrg]
    rw [harrg] at i2
    exact Inv.back (K := kind α) (o := ⟨some _, none, x.n, x.n, x.k, false, false⟩) (r := ⟨k, some L, false, none⟩) (i2.newh _) hw
      ⟨rfl, hk, hxr.pos, rfl, k1, k2, Nat.le_refl _, Or.inr ⟨_, rfl, blk_new _ _ _⟩, rfl⟩

theorem moveAssign_ok (i : Stands s g) (v w : Nat) : Agrees s g (.moveAssign v w) := by
  unfold Agrees
  rw [IntRef.step]
  obtain h | ⟨r, h, e⟩ := ref_look g v
  · rw [h]; exact trivial
  rw [e, Res.ok_bind]
  obtain h' | ⟨k, L, b, C, h', e'⟩ := ref_full g w
  · rw [h']; exact trivial
  rw [e', Res.ok_bind]
  dsimp only
  by_cases c : v = w
  · rw [if_pos c]; exact trivial
  rw [if_neg c]
  obtain ⟨o, ho, hr⟩ := i.look h
  have hr : Rep s.host s.dev o _ := hr
  obtain ⟨x, hx, hxr⟩ := i.look h'
  obtain ⟨f1, f2, i1⟩ := strip i ho hr
  have hw := (List.getElem?_eq_some_iff.mp ho).1
  have hww := (List.getElem?_eq_some_iff.mp hx).1
  obtain ⟨x', hx', hxr'⟩ := i1.look (v := w) (r := ⟨k, some L, b, C⟩) (by rw [List.getElem?_set_ne c]; exact h')
  have hx2 := hx'
  rw [List.getElem?_set_ne c, hx] at hx2
  obtain rfl := Option.some.inj (Option.some.inj hx2)
  have hxr' : Rep (PoolMem.freed s.host o.arr) (PoolMem.freed s.dev o.arrg) x _ := hxr'
  rw [step, moveAssign, look_eq ho, Res.ok_bind, look_eq hx, Res.ok_bind, hr.owns, if_neg (by simp), f1, Res.ok_bind, if_neg (by simp), f2, Res.ok_bind, if_neg c]
  refine ⟨_, rfl, ?_⟩
  have i2 := Inv.back (K := kind α) (eh := x.arr.toList ++ []) (ed := x.arrg.toList ++ []) (o := { x with arr := none, arrg := none }) (r := ⟨k, none, b, none⟩) (i1.take hx') (by rw [List.length_set]; exact hww)
    ⟨hxr'.owns, hxr'.k, hxr'.pos, hxr'.gpu, rfl, rfl⟩
  have i3 := i2.take (v := v) (o := { o with arr := none, arrg := none }) (by rw [List.getElem?_set_ne (Ne.symm c), List.getElem?_set_self hw])
  have i4 := Inv.back (K := kind α) (o := x) (r := ⟨k, some L, b, C⟩) (eh := []) (ed := []) i3 (by rw [List.length_set, List.length_set]; exact hw) hxr'
  rw [List.set_comm _ _ c, List.set_set, List.set_comm _ _ c, List.set_set] at i4
  exact i4

theorem freed_get {h : Heap α} {p : Option Nat} {q : Nat} {x : List (Option α)} (e : (PoolMem.freed h p)[q]? = some (some x)) : h[q]? = some (some x) := by
  cases p with
  | none => exact e
  | some p =>
    by_cases c : p = q
    · subst c
      have e' : (h.set p none)[p]? = some (some x) := e
      by_cases hl : p < h.length
      · rw [List.getElem?_set_self hl] at e'; cases e'
      · rw [List.getElem?_eq_none (by rw [List.length_set]; omega)] at e'; cases e'
    · exact (List.getElem?_set_ne c).symm.trans e

theorem toDevice_ok (i : Stands s g) (v : Nat) (b : Bool) : Agrees s g (.toDevice v b) := by
  unfold Agrees
  rw [IntRef.step]
  obtain h | ⟨k, L, b', C, h, e⟩ := ref_full g v
  · rw [h]; exact trivial
  rw [e, Res.ok_bind]
  dsimp only
  obtain ⟨o, ho, hr⟩ := i.look h
  have hr : Rep s.host s.dev o _ := hr
  have hg : o.gpu = b' := hr.gpu
  rw [step, toDevice, look_eq ho, Res.ok_bind]
  by_cases c : b' = b
  · rw [if_pos c, if_pos (hg.trans c)]
    exact ⟨s, rfl, i⟩
  rw [if_neg c, if_neg fun z => c (hg.symm.trans z)]
  by_cases c2 : b = true ∧ L ≠ []
  case neg => rw [if_neg c2]; exact trivial
  rw [if_pos c2]
  obtain ⟨c2, c3⟩ := c2
  subst c2
  have hb : b' = false := by simpa using c
  subst hb
  obtain ⟨k1, k2, k3, k4⟩ := hr.rows
  have k4' := k4
  rw [hg, if_neg (by simp)] at k4'
  obtain ⟨⟨k5, k6⟩ | ⟨p, k5, k6⟩, k7⟩ := k4'
  · have : L.length = 0 := by omega
    exact absurd (List.eq_nil_of_length_eq_zero this) c3
  have hw := (List.getElem?_eq_some_iff.mp ho).1
  obtain ⟨f2, i2⟩ := freed (p := o.arrg) (i.take ho)
  rw [hr.owns, if_neg (by simp), if_pos rfl, k5, Option.isSome_some, Res.assrt_true, Res.ok_bind, f2, Res.ok_bind, ← k5, sourceHost hr.rows hg]
  refine ⟨_, rfl, ?_⟩
  exact Inv.back (K := kind α) (o := { o with cap := o.n, arrg := some (PoolMem.freed s.dev o.arrg).length, gpu := true, isView := false }) (r := ⟨k, some L, true, none⟩) (i2.newd _) hw
    ⟨rfl, hr.k, hr.pos, rfl, k1, k2, Nat.le_refl _, rfl, _, rfl, blk_new _ _ _⟩

/-- Writing into a block. -/
theorem blk_write {h : Heap α} {p m : Nat} {L L' : List (List α)} (i : Blk h p L m) (off : Nat) (v A B : List α) (hv : v ≠ []) (hL : L.flatten.take off = A) (hA : A.length = off)
    (hL' : L'.flatten = A ++ v ++ B) (hB : L.flatten.drop (off + v.length) = B) (hm : off + v.length ≤ m) :
    ∃ c, write h (some p) off v = .ok (h.set p (some c)) ∧ Blk (h.set p (some c)) p L' m := by
  obtain ⟨b, b1, ⟨j, b2⟩, b3⟩ := i
  have hlt := (List.getElem?_eq_some_iff.mp b1).1
  refine ⟨b.take off ++ v.map some ++ b.drop (off + v.length), ?_, _, List.getElem?_set_self hlt, ?_, ?_⟩
  · unfold write
    rw [if_neg hv]
    simp only [b1]
    rw [if_pos (by omega)]
  · have hoff : off ≤ L.flatten.length := by
      rw [← hA, ← hL, List.length_take]
      omega
    have e1 : b.take off = A.map some := by
      rw [← b2, List.take_append_of_le_length (by rw [List.length_map]; omega), ← List.map_take, hL]
    have e2 : B.map some <+: b.drop (off + v.length) := by
      rw [← hB, List.map_drop, ← b2, List.drop_append]
      exact List.prefix_append _ _
    rw [hL', List.map_append, List.map_append, e1]
    exact List.prefix_append_right_inj _ |>.mpr e2
  · simp only [List.length_append, List.length_map, List.length_take, List.length_drop]
    omega

theorem set_same {β : Type} {l : List β} {v : Nat} {x : β} (h : l[v]? = some x) : l.set v x = l := by
  obtain ⟨h1, h2⟩ := List.getElem?_eq_some_iff.mp h
  rw [← h2, List.set_getElem_self]

theorem set_ok (i : Stands s g) (v k j : Nat) (a : α) : Agrees s g (.set v k j a) := by
  unfold Agrees
  rw [IntRef.step]
  obtain h | ⟨q, L, C, h, e⟩ := ref_hosted g v
  · rw [h]; exact trivial
  rw [e, Res.ok_bind]
  obtain ⟨o, ho, hr⟩ := i.look h
  have hr : Rep s.host s.dev o _ := hr
  have hw := (List.getElem?_eq_some_iff.mp ho).1
  have hq : o.k = q := hr.k
  dsimp only
  cases hl : L[k]? with
  | none => exact trivial
  | some l =>
    dsimp only
    by_cases hj : j < q
    case neg => rw [if_neg hj]; exact trivial
    rw [if_pos hj]
    have hk := (List.getElem?_eq_some_iff.mp hl).1
    obtain ⟨k1, k2, k3, k4⟩ := hr.rows
    rw [show o.gpu = false from hr.gpu, if_neg (by simp)] at k4
    obtain ⟨⟨k4, k5⟩ | ⟨p, k4, k5⟩, k6⟩ := k4
    · omega
    have hll : l.length = o.k := k2 l (List.mem_of_getElem? hl)
    have hjl : j < l.length := by omega
    have hf := flatten_len k2
    have ht := take_len (i := k) k2 (by omega)
    have hlen := congrArg List.length (PoolMem.flatten_split L k l hl)
    simp only [List.length_append] at hlen
    rw [ht] at hlen
    have hm : o.n * o.k ≤ o.cap * o.k := Nat.mul_le_mul_right _ k3
    rw [k1, ← hf] at hm
    have e1 : l.take j ++ (l[j] :: l.drop (j + 1)) = l := by rw [List.getElem_cons_drop, List.take_append_drop]
    have e3 : L.flatten = ((L.take k).flatten ++ l.take j) ++ (l[j] :: (l.drop (j + 1) ++ (L.drop (k + 1)).flatten)) := by
      rw [PoolMem.flatten_split L k l hl]
      conv_lhs => rw [← e1]
      simp only [List.append_assoc, List.cons_append]
    have hA : ((L.take k).flatten ++ l.take j).length = k * o.k + j := by
      rw [List.length_append, List.length_take, ht]
      omega
    obtain ⟨c, w1, w2⟩ := blk_write (L' := L.set k (l.set j a)) k5 (k * o.k + j) [a] ((L.take k).flatten ++ l.take j) (l.drop (j + 1) ++ (L.drop (k + 1)).flatten) (by simp)
      (by rw [e3, List.take_left' hA]) hA (by rw [PoolMem.flatten_set L k l (l.set j a) hl, List.set_eq_take_append_cons_drop, if_pos hjl]; simp)
      (by
        rw [e3, List.drop_append, List.drop_of_length_le (by rw [hA]; simp), hA, List.length_singleton, Nat.add_sub_cancel_left]
        rfl)
      (by rw [List.length_singleton]; omega)
    rw [step, set, look_eq ho, Res.ok_bind, k4, w1]
    refine ⟨_, rfl, ?_⟩
    have i1 := i.take ho
    have i2 : Inv (kind α) s.host s.dev (s.objs.set v none) (g.set v none) (p :: []) (o.arrg.toList ++ []) := i1.permh (by
      show (o.arr.toList ++ []).Perm _
      rw [k4]
      exact List.Perm.refl _)
    have i3 := Inv.back (K := kind α) (o := o) (r := ⟨q, some (L.set k (l.set j a)), false, C⟩) (eh := []) (ed := []) ((i2.seth c).permh (by
      show (p :: []).Perm (o.arr.toList ++ [])
      rw [k4]
      exact List.Perm.refl _)) hw ⟨hr.owns, hr.k, hr.pos, hr.gpu, by rw [List.length_set]; exact k1, fun x hx => by
        rcases List.mem_or_eq_of_mem_set hx with hx | rfl
        · exact k2 x hx
        · rw [List.length_set]; exact hll, k3, by
        rw [show o.gpu = false from hr.gpu, if_neg (by simp)]
        exact ⟨Or.inr ⟨p, k4, w2⟩, k6⟩⟩
    rw [set_same ho] at i3
    exact i3

/-- Room for one more row. -/
theorem room (i : Stands s g) {v k : Nat} {L : List (List α)} {C : Option (List (List α))} {o : Obj} (h : g[v]? = some (some ⟨k, some L, false, C⟩)) (ho : s.objs[v]? = some (some o))
    (hr : Rep s.host s.dev o ⟨k, some L, false, C⟩) :
    ∃ hs p o', (if o.cap ≤ o.n + 1 then reserve0 s o (2 * (o.n + 1)) else .ok (s, o)) = .ok ({ s with host := hs }, o') ∧ o' = { o with arr := some p, cap := o'.cap } ∧
      o.n + 1 ≤ o'.cap ∧ Inv (kind α) hs s.dev (s.objs.set v none) (g.set v none) [p] (o.arrg.toList ++ []) ∧ Blk hs p L (o'.cap * o.k) := by
  obtain ⟨k1, k2, k3, k4⟩ := hr.rows
  have hg : o.gpu = false := hr.gpu
  have hf := flatten_len k2
  by_cases c : o.cap ≤ o.n + 1
  · rw [if_pos c]
    obtain ⟨f1, i2⟩ := freeh (p := o.arr) (i.take ho)
    unfold reserve0
    rw [if_neg (by omega), hr.owns, if_neg (by simp), hg, if_neg (by simp), sourceHost hr.rows hg, Res.ok_bind, f1, Res.ok_bind]
    refine ⟨_, _, _, rfl, rfl, ?_, i2.newh _, blk_new _ _ _⟩
    dsimp only
    omega
  · rw [if_neg c]
    rw [hg, if_neg (by simp)] at k4
    obtain ⟨⟨k4, k5⟩ | ⟨p, k4, k5⟩, k6⟩ := k4
    · omega
    refine ⟨s.host, p, o, rfl, by rw [← k4], by omega, (i.take ho).permh ?_, k5⟩
    show (o.arr.toList ++ []).Perm _
    rw [k4]
    exact List.Perm.refl _

theorem push_ok (i : Stands s g) (v : Nat) (x : List α) : Agrees s g (.push v x) := by
  unfold Agrees
  rw [IntRef.step]
  obtain h | ⟨q, L, C, h, e⟩ := ref_hosted g v
  · rw [h]; exact trivial
  rw [e, Res.ok_bind]
  obtain ⟨o, ho, hr⟩ := i.look h
  have hr : Rep s.host s.dev o _ := hr
  have hw := (List.getElem?_eq_some_iff.mp ho).1
  have hq : o.k = q := hr.k
  have hg : o.gpu = false := hr.gpu
  dsimp only
  rw [step, push, look_eq ho, Res.ok_bind]
  by_cases c : x.length = q
  case neg =>
    rw [if_neg c, decide_eq_false (by omega), Res.assrt_false]
    rfl
  rw [if_pos c, decide_eq_true (by omega), Res.assrt_true, Res.ok_bind]
  obtain ⟨hs, p, o', r1, r2, r3, r4, r5⟩ := room i h ho hr
  obtain ⟨k1, k2, k3, k4⟩ := hr.rows
  have hf := flatten_len k2
  have hpos := hr.pos
  rw [hg, if_neg (by simp)] at k4
  have hm : (o.n + 1) * o.k ≤ o'.cap * o.k := Nat.mul_le_mul_right _ r3
  rw [Nat.add_mul, Nat.one_mul] at hm
  rw [← k1] at hf
  obtain ⟨y, w1, w2⟩ := blk_write (L' := L ++ [x]) r5 (o.n * o.k) x L.flatten [] (by intro z; rw [z] at c; simp at c; omega) (by rw [← hf, List.take_length]) hf (by simp)
    (List.drop_of_length_le (by omega)) (by omega)
  rw [r1, Res.ok_bind]
  dsimp only
  rw [r2]
  dsimp only
  rw [w1]
  refine ⟨_, rfl, ?_⟩
  exact Inv.back (K := kind α) (o := { o with arr := some p, cap := o'.cap, n := o.n + 1 }) (r := ⟨q, some (L ++ [x]), false, C⟩) (eh := []) (ed := []) (r4.seth y) hw
    ⟨hr.owns, hr.k, hr.pos, hr.gpu, by dsimp only; rw [List.length_append, k1]; rfl, fun l hl => by
      rcases List.mem_append.mp hl with hl | hl
      · exact k2 l hl
      · rw [List.mem_singleton.mp hl]; exact c.trans hq.symm, r3, by
      dsimp only
      rw [hg, if_neg (by simp)]
      exact ⟨Or.inr ⟨p, rfl, w2⟩, k4.2⟩⟩

theorem readRows {d : Heap α} {q m k : Nat} {L : List (List α)} (b : Blk d q L m) (hk : ∀ l ∈ L, l.length = k) :
    Res.forM (List.range L.length) [] (fun ls i => do
      let l ← readList d (some q) (i * k) k
      .ok (ls ++ [l])) = .ok L := by
  rw [PoolMem.forM_range (fun i => readList d (some q) (i * k) k) (fun _ l => l) L L.length (Nat.le_refl _) fun i l hl => readRow b hk hl]
  simp

theorem garr_ok (i : Stands s g) (v : Nat) : Agrees s g (.garr v) := by
  unfold Agrees
  rw [IntRef.step]
  obtain h | ⟨k, L, b, C, h, e⟩ := ref_full g v
  · rw [h]; exact trivial
  rw [e, Res.ok_bind]
  dsimp only
  obtain ⟨o, ho, hr⟩ := i.look h
  have hr : Rep s.host s.dev o _ := hr
  have hg : o.gpu = b := hr.gpu
  have hw := (List.getElem?_eq_some_iff.mp ho).1
  have hrows := hr.rows
  obtain ⟨k1, k2, k3, k4⟩ := hr.rows
  have hf := flatten_len k2
  have hpos := hr.pos
  rw [step, garr, look_eq ho, Res.ok_bind]
  cases b with
  | true =>
    rw [if_pos rfl]
    rw [hg, if_pos rfl] at k4
    obtain ⟨-, q, k5, k6⟩ := k4
    rw [k5]
    dsimp only
    rw [Res.ok_bind]
    dsimp only
    rw [k1, readRows k6 k2]
    exact ⟨s, rfl, i⟩
  | false =>
    rw [if_neg (by simp)]
    rw [hg, if_neg (by simp)] at k4
    obtain ⟨k4, k5⟩ := k4
    cases C with
    | some C =>
      dsimp only
      by_cases c : C.length = L.length
      case neg => rw [if_neg c]; exact trivial
      rw [if_pos c]
      obtain ⟨k5, q, k6, k7⟩ := k5
      rw [k6]
      dsimp only
      rw [Res.ok_bind]
      dsimp only
      rw [k1, ← c, readRows k7 k5]
      exact ⟨s, rfl, i⟩
    | none =>
      dsimp only
      by_cases c : L = []
      · rw [if_pos c]; exact trivial
      rw [if_neg c]
      have k5 : o.arrg = none := k5
      have hl : 0 < L.length := List.length_pos_of_ne_nil c
      obtain ⟨k4, k6⟩ | ⟨p, k4, k6⟩ := k4
      · omega
      have hm : o.n * o.k ≤ o.cap * o.k := Nat.mul_le_mul_right _ k3
      have hnz : 0 < o.n * o.k := Nat.mul_pos (by omega) hpos
      rw [k1] at hm hnz
      obtain ⟨b, b1, ⟨j, b2⟩, b3⟩ := k6
      have hsrc : source s.host o.arr (o.cap * o.k) = .ok (b.take (o.cap * o.k)) := by
        unfold source
        rw [if_neg (by omega), k4]
        simp only [b1]
        rw [if_pos b3]
      have hpre : L.flatten.map some <+: b.take (o.cap * o.k) := by
        rw [← b2, List.take_append, List.take_of_length_le (by rw [List.length_map]; omega)]
        exact List.prefix_append _ _
      have hblk : Blk (s.dev ++ [some (block (o.cap * o.k) (b.take (o.cap * o.k)))]) s.dev.length L 0 :=
        ⟨block (o.cap * o.k) (b.take (o.cap * o.k)), by rw [List.getElem?_append_right (Nat.le_refl _), Nat.sub_self]; rfl, hpre.trans (List.prefix_append _ _), Nat.zero_le _⟩
      rw [k5]
      dsimp only
      rw [hr.owns, Bool.not_false, Res.assrt_true, hsrc, k4, Option.isSome_some, Res.assrt_true, Res.ok_bind, Res.ok_bind, Res.ok_bind, Res.ok_bind]
      dsimp only
      rw [k1, readRows hblk k2]
      refine ⟨_, rfl, ?_⟩
      have i1 := i.take ho
      have i2 : Inv (kind α) s.host s.dev (s.objs.set v none) (g.set v none) (o.arr.toList ++ []) [] := i1.permd (by
        show (o.arrg.toList ++ []).Perm _
        rw [k5]
        exact List.Perm.refl _)
      have i3 := Inv.back (K := kind α) (o := { o with arrg := some s.dev.length }) (r := ⟨k, some L, false, some L⟩) (eh := []) (ed := []) (i2.newd _) hw
        ⟨hr.owns, hr.k, hr.pos, hr.gpu, k1, k2, k3, by
          dsimp only
          rw [hg, if_neg (by simp)]
          exact ⟨Or.inr ⟨p, k4, b, b1, ⟨j, b2⟩, b3⟩, k2, _, rfl, hblk⟩⟩
      simp only [hr.owns, k4, k1, hg] at i3
      simpa only [Stands, hg] using i3

theorem step_ok (i : Stands s g) (c : Cmd α) : Agrees s g c := by
  cases c with
  | make k => exact make_ok i k
  | push v x => exact push_ok i v x
  | set v k j x => exact set_ok i v k j x
  | row v k => exact row_ok i v k
  | copy w => exact copy_ok i w
  | move w => exact move_ok i w
  | assign v w => exact assign_ok i v w
  | moveAssign v w => exact moveAssign_ok i v w
  | view w => exact trivial
  | toDevice v b => exact toDevice_ok i v b
  | garr v => exact garr_ok i v
  | destroy v => exact destroy_ok i v

theorem run_ok (p : List (Cmd α)) {s : State α} {g : List (Option (IntRef.Ten α))} (i : Stands s g) :
    match IntRef.run g p with
    | .ub => True
    | .throw => run s p = .throw
    | .ok (g', xs) => ∃ s', run s p = .ok (s', xs) ∧ Stands s' g' := by
  induction p generalizing s g with
  | nil => exact ⟨s, rfl, i⟩
  | cons c p ih =>
    have h := step_ok i c
    unfold Agrees at h
    rw [IntRef.run, run]
    cases e : IntRef.step g c with
    | ub => exact trivial
    | throw =>
      rw [e] at h
      dsimp only at h
      rw [h]
      rfl
    | ok y =>
      obtain ⟨g1, x⟩ := y
      rw [e] at h
      obtain ⟨s1, h1, i1⟩ := h
      rw [h1, Res.ok_bind, Res.ok_bind]
      dsimp only
      have := ih i1
      cases e2 : IntRef.run g1 p with
      | ub => exact trivial
      | throw =>
        rw [e2] at this
        dsimp only at this
        rw [this]
        rfl
      | ok z =>
        obtain ⟨g2, xs⟩ := z
        rw [e2] at this
        obtain ⟨s2, h2, i2⟩ := this
        rw [h2]
        exact ⟨s2, rfl, i2⟩

theorem cell_eq {h : Heap α} {p m a : Nat} {L : List (List α)} (b : Blk h p L m) (ha : a < L.flatten.length) : PoolMem.cell h (some p) a = .ok L.flatten[a] := by
  obtain ⟨b, b1, ⟨j, b2⟩, b3⟩ := b
  have hb : b[a]? = some (some L.flatten[a]) := by
    rw [← b2, List.getElem?_append_left (by rw [List.length_map]; exact ha), List.getElem?_map, List.getElem?_eq_getElem ha]
    rfl
  unfold PoolMem.cell
  simp only [b1, hb]

theorem eqFrom_ok [DecidableEq α] {h : Heap α} {p q : Option Nat} {l l' : List α} (h1 : ∀ j (hj : j < l.length), PoolMem.cell h p j = .ok l[j])
    (h2 : ∀ j (hj : j < l'.length), PoolMem.cell h q j = .ok l'[j]) : ∀ is : List Nat, (∀ i ∈ is, i < l.length ∧ i < l'.length) →
    eqFrom h p q is = .ok (decide (∀ i ∈ is, l[i]? = l'[i]?))
  | [], _ => by simp [eqFrom]
  | i :: is, hi => by
    obtain ⟨c1, c2⟩ := hi i List.mem_cons_self
    rw [eqFrom, h1 i c1, Res.ok_bind, h2 i c2, Res.ok_bind, eqFrom_ok h1 h2 is fun k hk => hi k (List.mem_cons_of_mem _ hk)]
    split
    · next c =>
      rw [decide_eq_false]
      intro z
      have := z i List.mem_cons_self
      rw [List.getElem?_eq_getElem c1, List.getElem?_eq_getElem c2] at this
      exact c (Option.some.inj this)
    · next c =>
      congr 1
      rw [decide_eq_decide, List.forall_mem_cons, List.getElem?_eq_getElem c1, List.getElem?_eq_getElem c2]
      simp only [ne_eq, not_not] at c
      simp [c]

theorem flatten_inj {k : Nat} (hk : 0 < k) : ∀ {L M : List (List α)}, (∀ l ∈ L, l.length = k) → (∀ l ∈ M, l.length = k) → L.flatten = M.flatten → L = M
  | [], [], _, _, _ => rfl
  | [], m :: M, _, h2, e => by
    have e1 := congrArg List.length e
    rw [List.flatten_cons, List.length_append, h2 m List.mem_cons_self, List.flatten_nil, List.length_nil] at e1
    omega
  | l :: L, [], h1, _, e => by
    have e1 := congrArg List.length e
    rw [List.flatten_cons, List.length_append, h1 l List.mem_cons_self, List.flatten_nil, List.length_nil] at e1
    omega
  | l :: L, m :: M, h1, h2, e => by
    rw [List.flatten_cons, List.flatten_cons] at e
    obtain ⟨e1, e2⟩ := List.append_inj e ((h1 l List.mem_cons_self).trans (h2 m List.mem_cons_self).symm)
    rw [e1, flatten_inj hk (fun x hx => h1 x (List.mem_cons_of_mem _ hx)) (fun x hx => h2 x (List.mem_cons_of_mem _ hx)) e2]

theorem equal_ok [DecidableEq α] (i : Stands s g) {v w k k' : Nat} {L M : List (List α)} {C D : Option (List (List α))} {x y : Obj} (hv : g[v]? = some (some ⟨k, some L, false, C⟩))
    (hw : g[w]? = some (some ⟨k', some M, false, D⟩)) (ho : s.objs[v]? = some (some x)) (hp : s.objs[w]? = some (some y)) (hx : x.cap = x.n) (hy : y.cap = y.n) :
    equal s v w = .ok (decide (k = k' ∧ L = M)) := by
  obtain ⟨o, ho', hr⟩ := i.look hv
  rw [ho] at ho'
  obtain rfl := Option.some.inj (Option.some.inj ho')
  obtain ⟨o, hp', hr'⟩ := i.look hw
  rw [hp] at hp'
  obtain rfl := Option.some.inj (Option.some.inj hp')
  have hr : Rep s.host s.dev x _ := hr
  have hr' : Rep s.host s.dev y _ := hr'
  obtain ⟨k1, k2, k3, k4⟩ := hr.rows
  obtain ⟨l1, l2, l3, l4⟩ := hr'.rows
  have f1 := flatten_len k2
  have f2 := flatten_len l2
  have e1 : x.k = k := hr.k
  have e2 : y.k = k' := hr'.k
  rw [show x.gpu = false from hr.gpu, if_neg (by simp)] at k4
  rw [show y.gpu = false from hr'.gpu, if_neg (by simp)] at l4
  rw [equal, look_eq ho, Res.ok_bind, look_eq hp, Res.ok_bind, hx, hy]
  split
  · next c =>
    rw [decide_eq_false]
    rintro ⟨z1, z2⟩
    apply c
    rw [k1, l1, e1, e2, z1, z2]
  · next c =>
    simp only [ne_eq, not_not, Prod.mk.injEq] at c
    rw [c.1, c.2, if_neg (by simp)]
    have hc : ∀ j (hj : j < L.flatten.length), PoolMem.cell s.host x.arr j = .ok L.flatten[j] := by
      intro j hj
      obtain ⟨⟨k4, k5⟩ | ⟨p, k4, k5⟩, -⟩ := k4
      · have : L.length = 0 := by omega
        rw [f1, this] at hj
        omega
      · rw [k4]; exact cell_eq k5 hj
    have hd : ∀ j (hj : j < M.flatten.length), PoolMem.cell s.host y.arr j = .ok M.flatten[j] := by
      intro j hj
      obtain ⟨⟨k4, k5⟩ | ⟨p, k4, k5⟩, -⟩ := l4
      · have : M.length = 0 := by omega
        rw [f2, this] at hj
        omega
      · rw [k4]; exact cell_eq k5 hj
    have f3 : L.flatten.length = y.n * y.k := by rw [f1, ← k1, c.1, c.2]
    have f4 : M.flatten.length = y.n * y.k := by rw [f2, ← l1]
    rw [eqFrom_ok hc hd _ fun j hj => by
      have := List.mem_range.mp hj
      omega]
    congr 1
    rw [decide_eq_decide]
    constructor
    · intro z
      refine ⟨by omega, flatten_inj hr.pos k2 (by rw [c.2]; exact l2) ?_⟩
      apply List.ext_getElem?
      intro j
      by_cases cj : j < y.n * y.k
      · exact z j (List.mem_range.mpr cj)
      · rw [List.getElem?_eq_none (by omega), List.getElem?_eq_none (by omega)]
    · rintro ⟨-, rfl⟩ j _
      rfl

end IntMem

end Cnine
