import Verif.Spec.Gtensor
import Verif.Lemmas.Index
import Verif.Lemmas.Elem
import Mathlib.Tactic.Ring
import Mathlib.Tactic.LinearCombination

/-! Tensors that own their array: positions and loops that write cells. -/

namespace Cnine

variable {α : Type}

namespace GT

/-! ### Positions -/

theorem pick {dims ix : List Nat} (h : InRange ix dims) : (allIndices dims)[position dims ix]? = some ix := by
  obtain ⟨j, hj, e⟩ := List.mem_iff_getElem.mp (mem_allIndices.2 h)
  have h1 : position dims ix = j := by
    have h2 : ((allIndices dims).map (position dims))[j]? = some (position dims ix) := by
      rw [List.getElem?_map, List.getElem?_eq_getElem hj, e]; rfl
    rw [map_position_allIndices, List.getElem?_range (by rw [← allIndices_length]; exact hj)] at h2
    exact (Option.some.inj h2).symm
  rw [h1, List.getElem?_eq_getElem hj, e]

theorem surj {dims : List Nat} {i : Nat} (h : i < dims.prod) : ∃ ix, InRange ix dims ∧ position dims ix = i := by
  have h1 : i ∈ (allIndices dims).map (position dims) := by rw [map_position_allIndices]; simpa using h
  obtain ⟨ix, h2, h3⟩ := List.mem_map.mp h1
  exact ⟨ix, mem_allIndices.1 h2, h3⟩

theorem cell_ext {dims : List Nat} {b : List α} {f : List Nat → α} (hl : b.length = dims.prod)
    (h : ∀ ix, InRange ix dims → b[position dims ix]? = some (f ix)) : b = (allIndices dims).map f := by
  apply List.ext_getElem?
  intro i
  by_cases c : i < dims.prod
  · obtain ⟨ix, h1, rfl⟩ := surj c
    rw [h ix h1, List.getElem?_map, pick h1]; rfl
  · rw [List.getElem?_eq_none (by omega), List.getElem?_eq_none (by simp [allIndices_length]; omega)]

theorem cell_get {dims ix : List Nat} (f : List Nat → α) (h : InRange ix dims) :
    ((allIndices dims).map f)[position dims ix]? = some (f ix) := by
  rw [List.getElem?_map, pick h]; rfl

theorem position_app {A B ix jx : List Nat} (h : ix.length = A.length) :
    position (A ++ B) (ix ++ jx) = position A ix * B.prod + position B jx := by
  induction A generalizing ix with
  | nil => rw [List.length_eq_zero_iff.mp h]; simp [position]
  | cons a A ih =>
    cases ix with
    | nil => cases h
    | cons i ix =>
      simp only [List.cons_append, position]
      rw [ih (by simpa using h), List.prod_append]
      ring

theorem inRange_app {A B ix jx : List Nat} (h : InRange ix A) (h' : InRange jx B) : InRange (ix ++ jx) (A ++ B) :=
  List.rel_append h h'

theorem inRange_split {A B lx : List Nat} (h : InRange lx (A ++ B)) :
    InRange (lx.take A.length) A ∧ InRange (lx.drop A.length) B := by
  induction A generalizing lx with
  | nil => exact ⟨List.Forall₂.nil, by simpa using h⟩
  | cons a A ih =>
    cases h with
    | cons h1 h2 =>
      obtain ⟨h3, h4⟩ := ih h2
      exact ⟨List.Forall₂.cons h1 h3, h4⟩

theorem strides_get {D : List Nat} {i : Nat} (h : i < D.length) : (rmStrides D)[i]? = some ((D.drop (i + 1)).prod) := by
  induction D generalizing i with
  | nil => cases h
  | cons d D ih =>
    rw [rmStrides_cons]
    cases i with
    | zero => rfl
    | succ i => rw [List.getElem?_cons_succ, ih (by simpa using h)]; rfl

theorem strides_from (p : Nat) (D : List Nat) : rmStridesFrom p D = (rmStrides D).map (p * ·) := by
  induction D with
  | nil => rfl
  | cons d D ih => rw [rmStridesFrom_cons, rmStrides_cons, ih]; simp

/-! ### Offsets -/

theorem dot_run (ss ix : List Nat) (t n : Nat) (h1 : n ≤ ss.length) (h2 : n ≤ ix.length) :
    (loop n t fun i t => do
      let j ← Res.get ix i
      let s ← Res.get ss i
      .ok (t + j * s)) = Res.ok (t + dot (ss.take n) (ix.take n)) := by
  induction n with
  | zero => simp [loop]
  | succ n ih =>
    have ih := ih (by omega) (by omega)
    simp only [loop, List.range_succ, Res.forM_append] at ih ⊢
    rw [ih, Res.ok_bind, Res.forM_cons]
    have e1 : ss[n]? = some ss[n] := List.getElem?_eq_getElem (by omega)
    have e2 : ix[n]? = some ix[n] := List.getElem?_eq_getElem (by omega)
    rw [List.take_add_one, List.take_add_one, e1, e2, dot_append _ _ _ _ (by simp; omega)]
    simp only [Res.get, e1, e2, Res.ok_bind, Res.forM_nil, Option.toList_some, dot_cons, dot_nil_left]
    congr 1
    ring

theorem dot_all (ss ix : List Nat) (t : Nat) (h : ss.length = ix.length) :
    (loop ss.length t fun i t => do
      let j ← Res.get ix i
      let s ← Res.get ss i
      .ok (t + j * s)) = Res.ok (t + dot ss ix) := by
  rw [dot_run ss ix t ss.length le_rfl (by omega), List.take_length, h, List.take_length]

theorem dot_two (s1 s2 i1 i2 : List Nat) (h1 : s1.length = i1.length) (h2 : s2.length = i2.length) :
    ((loop i1.length 0 fun i t => do
      let j ← Res.get i1 i
      let s ← Res.get (s1 ++ s2) i
      .ok (t + j * s)) >>= fun t => loop i2.length t fun i t => do
      let j ← Res.get i2 i
      let s ← Res.get (s1 ++ s2) (i1.length + i)
      .ok (t + j * s)) = Res.ok (dot (s1 ++ s2) (i1 ++ i2)) := by
  rw [dot_run (s1 ++ s2) i1 0 i1.length (by simp; omega) le_rfl, Res.ok_bind, ← h1, List.take_left, h1, List.take_length,
    show (fun (i t : Nat) => (do
      let j ← Res.get i2 i
      let s ← Res.get (s1 ++ s2) (i1.length + i)
      .ok (t + j * s) : Res Nat)) = fun i t => (do
      let j ← Res.get i2 i
      let s ← Res.get s2 i
      .ok (t + j * s) : Res Nat) from by
        funext i t
        unfold Res.get
        rw [← h1, List.getElem?_append_right (by omega), Nat.add_sub_cancel_left],
    ← h2, dot_all s2 i2 _ h2, dot_append _ _ _ _ h1, Nat.zero_add]

theorem offset_rm {x : GT α} {dims ix : List Nat} (hk : x.k = dims.length) (hs : x.strides = rmStrides dims) (hi : ix.length = dims.length) :
    GT.offset x ix = .ok (position dims ix) := by
  unfold GT.offset
  have hl : x.k = x.strides.length := by rw [hk, hs, rmStrides_length]
  rw [hl, dot_all _ _ _ (by rw [hs, rmStrides_length, hi]), hs, dot_rmStrides _ _ hi, Nat.zero_add]

theorem Is.offset {x : GT α} {dims : List Nat} {f : List Nat → α} (h : Is x dims f) {ix : List Nat} (hi : ix.length = dims.length) :
    offset x ix = .ok (position dims ix) := offset_rm h.k h.strides hi

theorem IsArr.offset {x : GT α} {A D : List Nat} {pad : Nat} {f : List Nat → α} (h : IsArr x A D pad f) {ix jx : List Nat}
    (hi : ix.length = A.length) (hj : jx.length = D.length) :
    dot x.strides (ix ++ jx) = position A ix * pad + position D jx := by
  rw [h.strides, dot_append _ _ _ _ (by simp [hi]), dot_rmStrides _ _ hj, ← strides_from, dot_rmStridesFrom _ _ _ hi, Nat.mul_comm]

theorem pad_inj {A D : List Nat} {pad : Nat} (hp : D.prod ≤ pad) {ix jx ix' jx' : List Nat} (hi : InRange ix A) (hj : InRange jx D)
    (hi' : InRange ix' A) (hj' : InRange jx' D)
    (e : position A ix * pad + position D jx = position A ix' * pad + position D jx') : ix = ix' ∧ jx = jx' := by
  have a := position_lt hj
  have b := position_lt hj'
  have h0 : 0 < pad := by omega
  have e1 : position A ix = position A ix' := by
    have := congrArg (· / pad) e
    rwa [Nat.mul_comm, Nat.mul_add_div h0, Nat.div_eq_of_lt (by omega), Nat.mul_comm, Nat.mul_add_div h0, Nat.div_eq_of_lt (by omega), Nat.add_zero,
      Nat.add_zero] at this
  refine ⟨position_inj hi hi' e1, position_inj hj hj' ?_⟩
  rw [e1] at e
  exact Nat.add_left_cancel e

theorem pad_lt {A D : List Nat} {pad : Nat} (hp : D.prod ≤ pad) {ix jx : List Nat} (hi : InRange ix A) (hj : InRange jx D) :
    position A ix * pad + position D jx < A.prod * pad := by
  have a := position_lt hi
  have b := position_lt hj
  calc position A ix * pad + position D jx < position A ix * pad + pad := by omega
    _ = (position A ix + 1) * pad := by ring
    _ ≤ A.prod * pad := Nat.mul_le_mul_right _ a

/-! ### Loops that write cells -/

theorem sets_run {ι σ : Type} (wrap : List α → σ) (dst : ι → Nat) (val : ι → α → α) (body : σ → ι → Res σ) : ∀ (l : List ι) (a : List α),
    (l.map dst).Nodup → (∀ i ∈ l, dst i < a.length) →
    (∀ i ∈ l, ∀ b : List α, b.length = a.length → ∀ v, b[dst i]? = some v → body (wrap b) i = .ok (wrap (b.set (dst i) (val i v)))) →
    ∃ b, Res.forM l (wrap a) body = .ok (wrap b) ∧ b.length = a.length ∧
      (∀ i ∈ l, ∀ v, a[dst i]? = some v → b[dst i]? = some (val i v)) ∧ ∀ p, p ∉ l.map dst → b[p]? = a[p]? := by
  intro l
  induction l with
  | nil => intro a _ _ _; exact ⟨a, rfl, rfl, by simp, fun _ _ => rfl⟩
  | cons i l ih =>
    intro a hn hlt hb
    rw [List.map_cons, List.nodup_cons] at hn
    have hi := hlt i (by simp)
    have e0 : a[dst i]? = some a[dst i] := List.getElem?_eq_getElem hi
    obtain ⟨b, e, h1, h2, h3⟩ := ih (a.set (dst i) (val i a[dst i])) hn.2
      (fun j hj => by rw [List.length_set]; exact hlt j (List.mem_cons_of_mem _ hj))
      (fun j hj b hlb => hb j (List.mem_cons_of_mem _ hj) b (by rw [hlb, List.length_set]))
    refine ⟨b, ?_, by rw [h1, List.length_set], ?_, ?_⟩
    · rw [Res.forM_cons, hb i (by simp) a rfl _ e0, Res.ok_bind, e]
    · intro j hj v hv
      rcases List.mem_cons.mp hj with rfl | hj
      · rw [h3 _ hn.1, List.getElem?_set_self hi]
        rw [e0] at hv
        rw [Option.some.inj hv]
      · have hne : dst i ≠ dst j := fun e => hn.1 (e ▸ List.mem_map_of_mem hj)
        exact h2 j hj v (by rw [List.getElem?_set_ne hne]; exact hv)
    · intro p hp
      rw [List.map_cons, List.mem_cons, not_or] at hp
      rw [h3 p hp.2, List.getElem?_set_ne (Ne.symm hp.1)]

theorem wr_ok {a : List α} {t : Nat} {v o : α} (h : a[t]? = some o) : wr a t v = .ok (a.set t v) := by
  unfold wr
  rw [if_pos (List.getElem?_eq_some_iff.mp h).1]

theorem get_ok {β : Type} {a : List β} {t : Nat} {o : β} (h : a[t]? = some o) : Res.get a t = .ok o := by
  unfold Res.get; rw [h]

theorem loop_ix {σ : Type} (dims : List Nat) (s : σ) (body : Nat → σ → Res σ) :
    loop dims.prod s body = Res.forM (allIndices dims) s fun s ix => body (position dims ix) s := by
  unfold loop
  rw [← map_position_allIndices, forM_map]

/-- A loop that writes every cell of the array once. -/
theorem fill_run (dims : List Nat) (a : List α) (ha : a.length = dims.prod) (g : List Nat → α → α) (body : Nat → List α → Res (List α))
    (hb : ∀ ix, InRange ix dims → ∀ b : List α, b.length = dims.prod → ∀ v, b[position dims ix]? = some v →
      body (position dims ix) b = .ok (b.set (position dims ix) (g ix v))) :
    ∃ b, loop dims.prod a body = .ok b ∧ b.length = dims.prod ∧
      ∀ ix, InRange ix dims → ∀ v, a[position dims ix]? = some v → b[position dims ix]? = some (g ix v) := by
  rw [loop_ix]
  obtain ⟨b, e, h1, h2, _⟩ := sets_run (fun a : List α => a) (position dims) g (fun s ix => body (position dims ix) s) (allIndices dims) a
    (by rw [map_position_allIndices]; exact List.nodup_range)
    (fun ix hi => by rw [ha]; exact position_lt (mem_allIndices.1 hi))
    (fun ix hi b hl v hv => hb ix (mem_allIndices.1 hi) b (by rw [hl, ha]) v hv)
  exact ⟨b, e, by rw [h1, ha], fun ix hi => h2 ix (mem_allIndices.2 hi)⟩

/-- It writes values that do not depend on what was there. -/
theorem fill_new (dims : List Nat) (a : List α) (ha : a.length = dims.prod) (g : List Nat → α) (body : Nat → List α → Res (List α))
    (hb : ∀ ix, InRange ix dims → ∀ b : List α, b.length = dims.prod → ∀ v, b[position dims ix]? = some v →
      body (position dims ix) b = .ok (b.set (position dims ix) (g ix))) :
    loop dims.prod a body = .ok ((allIndices dims).map g) := by
  obtain ⟨b, e, h1, h2⟩ := fill_run dims a ha (fun ix _ => g ix) body hb
  rw [e]
  congr 1
  refine cell_ext h1 fun ix hi => ?_
  exact h2 ix hi _ (List.getElem?_eq_getElem (by rw [ha]; exact position_lt hi))

/-- It changes the entries. -/
theorem fill_upd (dims : List Nat) (f : List Nat → α) (g : List Nat → α → α) (body : Nat → List α → Res (List α))
    (hb : ∀ ix, InRange ix dims → ∀ b : List α, b.length = dims.prod → ∀ v, b[position dims ix]? = some v →
      body (position dims ix) b = .ok (b.set (position dims ix) (g ix v))) :
    loop dims.prod ((allIndices dims).map f) body = .ok ((allIndices dims).map fun ix => g ix (f ix)) := by
  obtain ⟨b, e, h1, h2⟩ := fill_run dims ((allIndices dims).map f) (by simp [allIndices_length]) g body hb
  rw [e]
  congr 1
  exact cell_ext h1 fun ix hi => h2 ix hi _ (cell_get f hi)

theorem total_ok [AddCommMonoid α] (n : Nat) (f : Nat → Res α) (g : Nat → α) (h : ∀ i < n, f i = .ok (g i)) :
    total n f = .ok ((List.range n).map g).sum := by
  unfold total
  induction n with
  | zero => rfl
  | succ n ih =>
    have ih := ih fun i hi => h i (by omega)
    simp only [loop, List.range_succ, Res.forM_append] at ih ⊢
    rw [ih, Res.ok_bind, Res.forM_cons, h n (by omega)]
    simp

theorem total_ix [AddCommMonoid α] (dims : List Nat) (f : Nat → Res α) (g : List Nat → α) (h : ∀ ix, InRange ix dims → f (position dims ix) = .ok (g ix)) :
    total dims.prod f = .ok ((allIndices dims).map g).sum := by
  rw [total_ok dims.prod f (fun i => ((allIndices dims)[i]?.map g).getD 0)]
  · rw [← map_position_allIndices, List.map_map]
    congr 2
    refine List.map_congr_left fun ix hi => ?_
    simp [pick (mem_allIndices.1 hi)]
  · intro i hi
    obtain ⟨ix, h1, rfl⟩ := surj hi
    rw [h ix h1, pick h1]; rfl

/-! ### New tensors -/

theorem new_ok (junk : Nat → α) {dims : List Nat} (h : dims ≠ []) :
    new junk dims = .ok ⟨dims.length, 0, dims, rmStrides dims, dims.prod, dims.prod, false, alloc junk dims.prod⟩ := by
  cases dims with
  | nil => exact absurd rfl h
  | cons d ds =>
    unfold new
    have e : (rmStridesFrom 1 (d :: ds)).headD 0 * d = (d :: ds).prod := by
      rw [rmStridesFrom_cons, List.headD_cons, Nat.one_mul, List.prod_cons, Nat.mul_comm]
    simp only [e]
    rfl

theorem alloc_length (junk : Nat → α) (n : Nat) : (alloc junk n).length = n := by simp [alloc]

/-- The tensor a new one becomes when all cells are written. -/
theorem new_is {dims : List Nat} (h : dims ≠ []) (g : List Nat → α) (v : Bool) :
    Is ⟨dims.length, 0, dims, rmStrides dims, dims.prod, dims.prod, v, (allIndices dims).map g⟩ dims g := ⟨h, rfl, rfl, rfl, rfl, rfl, rfl⟩

theorem Is.cell {x : GT α} {dims : List Nat} {f : List Nat → α} (h : Is x dims f) {ix : List Nat} (hi : InRange ix dims) :
    x.arr[position dims ix]? = some (f ix) := by rw [h.arr]; exact cell_get f hi

theorem Is.length {x : GT α} {dims : List Nat} {f : List Nat → α} (h : Is x dims f) : x.arr.length = dims.prod := by
  rw [h.arr, List.length_map, allIndices_length]

/-! ### Two groups of axes -/

theorem bind_ok {σ : Type} (x : Res σ) : (x >>= fun s => Res.ok s) = x := by cases x <;> rfl

theorem loop_prod {σ : Type} (A B : List Nat) (s : σ) (body : Nat → Nat → σ → Res σ) :
    (loop A.prod s fun i s => loop B.prod s fun j s => body i j s) =
      Res.forM (allIndices A ×ˢ allIndices B) s fun s q => body (position A q.1) (position B q.2) s := by
  rw [loop_ix]
  simp only [loop_ix]
  show _ = Res.forM (List.product _ _) _ _
  unfold List.product
  rw [forM_flatMap]
  simp only [forM_map]

/-- Two nested loops that write every cell once. -/
theorem two_run {σ : Type} (wrap : List α → σ) (A B : List Nat) (a : List α) (ha : a.length = (A ++ B).prod) (g : List Nat → List Nat → α → α)
    (body : Nat → Nat → σ → Res σ)
    (hb : ∀ ix, InRange ix A → ∀ jx, InRange jx B → ∀ b : List α, b.length = (A ++ B).prod → ∀ v, b[position (A ++ B) (ix ++ jx)]? = some v →
      body (position A ix) (position B jx) (wrap b) = .ok (wrap (b.set (position (A ++ B) (ix ++ jx)) (g ix jx v)))) :
    ∃ b, (loop A.prod (wrap a) fun i s => loop B.prod s fun j s => body i j s) = .ok (wrap b) ∧ b.length = (A ++ B).prod ∧
      ∀ ix, InRange ix A → ∀ jx, InRange jx B → ∀ v, a[position (A ++ B) (ix ++ jx)]? = some v →
        b[position (A ++ B) (ix ++ jx)]? = some (g ix jx v) := by
  rw [loop_prod]
  have mem : ∀ q : List Nat × List Nat, q ∈ allIndices A ×ˢ allIndices B ↔ InRange q.1 A ∧ InRange q.2 B := by
    rintro ⟨u, v⟩
    show (u, v) ∈ List.product _ _ ↔ _
    rw [List.pair_mem_product, mem_allIndices, mem_allIndices]
  obtain ⟨b, e, h1, h2, _⟩ := sets_run wrap (fun q : List Nat × List Nat => position (A ++ B) (q.1 ++ q.2)) (fun q => g q.1 q.2)
    (fun s q => body (position A q.1) (position B q.2) s) (allIndices A ×ˢ allIndices B) a
    (by
      refine List.Nodup.map_on ?_ ((allIndices_nodup A).product (allIndices_nodup B))
      rintro ⟨u, v⟩ h ⟨u', v'⟩ h' e
      obtain ⟨p1, p2⟩ := (mem _).1 h
      obtain ⟨q1, q2⟩ := (mem _).1 h'
      have e := position_inj (inRange_app p1 p2) (inRange_app q1 q2) e
      obtain ⟨e1, e2⟩ := List.append_inj e (by rw [p1.length, q1.length])
      exact Prod.ext e1 e2)
    (by
      intro q hq
      obtain ⟨p1, p2⟩ := (mem _).1 hq
      rw [ha]
      exact position_lt (inRange_app p1 p2))
    (by
      intro q hq b hl v hv
      obtain ⟨p1, p2⟩ := (mem _).1 hq
      exact hb q.1 p1 q.2 p2 b (by rw [hl, ha]) v hv)
  exact ⟨b, e, by rw [h1, ha], fun ix hi jx hj => h2 (ix, jx) ((mem _).2 ⟨hi, hj⟩)⟩

/-- With the entries. -/
theorem two_upd {σ : Type} (wrap : List α → σ) (A B : List Nat) (f : List Nat → α) (g : List Nat → List Nat → α → α)
    (body : Nat → Nat → σ → Res σ)
    (hb : ∀ ix, InRange ix A → ∀ jx, InRange jx B → ∀ b : List α, b.length = (A ++ B).prod → ∀ v, b[position (A ++ B) (ix ++ jx)]? = some v →
      body (position A ix) (position B jx) (wrap b) = .ok (wrap (b.set (position (A ++ B) (ix ++ jx)) (g ix jx v)))) :
    (loop A.prod (wrap ((allIndices (A ++ B)).map f)) fun i s => loop B.prod s fun j s => body i j s) =
      .ok (wrap ((allIndices (A ++ B)).map fun lx => g (lx.take A.length) (lx.drop A.length) (f lx))) := by
  obtain ⟨b, e, h1, h2⟩ := two_run wrap A B ((allIndices (A ++ B)).map f) (by simp [allIndices_length]) g body hb
  rw [e]
  congr 2
  refine cell_ext h1 fun lx hl => ?_
  obtain ⟨p1, p2⟩ := inRange_split hl
  have := h2 _ p1 _ p2 (f lx) (by rw [List.take_append_drop]; exact cell_get f hl)
  rwa [List.take_append_drop] at this

/-- Without what was there. -/
theorem two_new {σ : Type} (wrap : List α → σ) (A B : List Nat) (a : List α) (ha : a.length = (A ++ B).prod) (g : List Nat → List Nat → α)
    (body : Nat → Nat → σ → Res σ)
    (hb : ∀ ix, InRange ix A → ∀ jx, InRange jx B → ∀ b : List α, b.length = (A ++ B).prod → ∀ v, b[position (A ++ B) (ix ++ jx)]? = some v →
      body (position A ix) (position B jx) (wrap b) = .ok (wrap (b.set (position (A ++ B) (ix ++ jx)) (g ix jx)))) :
    (loop A.prod (wrap a) fun i s => loop B.prod s fun j s => body i j s) =
      .ok (wrap ((allIndices (A ++ B)).map fun lx => g (lx.take A.length) (lx.drop A.length))) := by
  obtain ⟨b, e, h1, h2⟩ := two_run wrap A B a ha (fun ix jx _ => g ix jx) body hb
  rw [e]
  congr 2
  refine cell_ext h1 fun lx hl => ?_
  obtain ⟨p1, p2⟩ := inRange_split hl
  have := h2 _ p1 _ p2 _ (List.getElem?_eq_getElem (by rw [ha]; exact position_lt (inRange_app p1 p2)))
  rwa [List.take_append_drop] at this

theorem setInts_ok {x : GT α} {dims ix : List Nat} {v o : α} (hk : x.k = dims.length) (hs : x.strides = rmStrides dims) (hi : ix.length = dims.length)
    (hv : x.arr[position dims ix]? = some o) : setInts x ix v = .ok { x with arr := x.arr.set (position dims ix) v } := by
  unfold setInts
  rw [show (decide (x.k = ix.length)) = true from decide_eq_true (by omega), Res.assrt_true, Res.ok_bind, offset_rm hk hs hi, Res.ok_bind, wr_ok hv]
  rfl

theorem Is.getInts {x : GT α} {dims : List Nat} {f : List Nat → α} (h : Is x dims f) {ix : List Nat} (hi : InRange ix dims) :
    getInts x ix = .ok (f ix) := by
  unfold GT.getInts
  rw [show (decide (x.k = ix.length)) = true from decide_eq_true (by rw [h.k, hi.length]), Res.assrt_true, Res.ok_bind, h.offset hi.length, Res.ok_bind,
    get_ok (h.cell hi)]

theorem one (n : Nat) : [n].prod = n := by simp

theorem one_pos (n i : Nat) : position [n] [i] = i := by simp [position]

theorem in_one {n i : Nat} (h : i < n) : InRange [i] [n] := List.Forall₂.cons h List.Forall₂.nil

theorem of_one {n : Nat} {ix : List Nat} (h : InRange ix [n]) : ∃ i < n, ix = [i] := by
  cases h with
  | cons h1 h2 => cases h2; exact ⟨_, h1, rfl⟩

theorem in_two {n m i j : Nat} (h : i < n) (h' : j < m) : InRange [i, j] [n, m] := List.Forall₂.cons h (in_one h')

end GT

end Cnine
