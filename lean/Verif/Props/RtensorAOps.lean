import Verif.Props.RtensorA
import Verif.Props.RViewThree

/-!
# Tensors of the old backend: views, windows, chunks and slices

C372-C377.
-/

namespace Cnine

variable {α : Type}

open RA

/-! ### Numbers for the blocks of indices before and after an axis -/

/-- The index with a given number. -/
def RA.nth (A : List Nat) (a : Nat) : List Nat := ((allIndices A)[a]?).getD []

theorem nth_pos {A ia : List Nat} (h : InRange ia A) : nth A (position A ia) = ia := by rw [nth, GT.pick h]; rfl

theorem nth_range {A : List Nat} {a : Nat} (h : a < A.prod) : InRange (nth A a) A ∧ position A (nth A a) = a := by
  obtain ⟨ia, h1, rfl⟩ := GT.surj h
  rw [nth_pos h1]; exact ⟨h1, rfl⟩

/-- The entry of a tensor with an axis of length `d` between axes `A` and `B`. -/
theorem axis_at {x : RA} {A B : List Nat} {d : Nat} {f : List Nat → α} {m : Buf α} (h : x.Is (A ++ d :: B) f m) {a k b : Nat} (ha : a < A.prod) (hk : k < d)
    (hb : b < B.prod) : m (x.arr + (a * (d * B.prod) + (k * B.prod + b))) = some (f (nth A a ++ k :: nth B b)) := by
  obtain ⟨h1, h2⟩ := nth_range ha
  obtain ⟨h3, h4⟩ := nth_range hb
  have := h.has (nth A a ++ k :: nth B b) (GT.inRange_app h1 (.cons hk h3))
  rwa [pos_axis h1.length, h2, h4] at this

theorem pair_at {x : RA} {A B : List Nat} {f : List Nat → α} {m : Buf α} (h : x.Is (A ++ B) f m) {a b : Nat} (ha : a < A.prod)
    (hb : b < B.prod) : m (x.arr + (a * B.prod + b)) = some (f (nth A a ++ nth B b)) := by
  obtain ⟨h1, h2⟩ := nth_range ha
  obtain ⟨h3, h4⟩ := nth_range hb
  have := h.has (nth A a ++ nth B b) (GT.inRange_app h1 h3)
  rwa [GT.position_app h1.length, h2, h4] at this

theorem axis_is {x : RA} {A B : List Nat} {d : Nat} {f g : List Nat → α} {m m' : Buf α} (h : x.Is (A ++ d :: B) f m)
    (hg : ∀ ia k ib, InRange ia A → k < d → InRange ib B →
      m' (x.arr + (position A ia * (d * B.prod) + (k * B.prod + position B ib))) = some (g (ia ++ k :: ib))) : x.Is (A ++ d :: B) g m' :=
  h.mk' fun ix hi => by
    obtain ⟨ia, k, ib, rfl, h1, h2, h3, h4⟩ := range_axis hi
    rw [pos_axis h4]; exact hg ia k ib h1 h2 h3

theorem axis_prod (A B : List Nat) (d : Nat) : (A ++ d :: B).prod = A.prod * (d * B.prod) := by simp

/-- `Owns` in the form used by the loops. -/
theorem off_own {x : RA} {n : Nat} (hn : x.asize = n) {c : Nat} (h : ¬ x.Owns c) : ∀ k, k < n → c ≠ x.arr + k := fun _ hk => not_owns h hn hk

theorem sub_lt {b k p offs e : Nat} (hp : p < b) : offs * b ≤ k * b + p ∧ k * b + p < offs * b + e * b ↔ offs ≤ k ∧ k < offs + e := by
  constructor
  · rintro ⟨h1, h2⟩
    constructor
    · by_contra c
      have := two_lt (S := b) (Nat.lt_of_not_le c) hp
      omega
    · by_contra c
      have := Nat.mul_le_mul_right b (Nat.le_of_not_lt c)
      rw [Nat.add_mul] at this
      omega
  · rintro ⟨h1, h2⟩
    have a := Nat.mul_le_mul_right b h1
    have c := two_lt (S := b) h2 hp
    rw [Nat.add_mul] at c
    omega

/-- The loops that combine a smaller tensor into part of a larger one. -/
theorem put_core (op : α → α → α) {r : RA} {A B : List Nat} {d e offs X : Nat} {f : List Nat → α} {m : Buf α} (hr : r.Is (A ++ d :: B) f m) (ho : offs + e ≤ d)
    (G : Nat → Nat → Nat → α) (hG : ∀ a, a < A.prod → ∀ k, k < e → ∀ b, b < B.prod →
      m (X + (a * (e * B.prod) + (k * B.prod + b))) = some (G a k b) ∧ ¬ r.Owns (X + (a * (e * B.prod) + (k * B.prod + b)))) :
    ∃ m', (loop A.prod m fun j m => loop (e * B.prod) m fun i m => updCell op m (r.arr + (j * (d * B.prod) + offs * B.prod + i)) (X + (j * (e * B.prod) + i))) = .ok m' ∧
      r.Becomes (A ++ d :: B) (fun ix => if offs ≤ ix.getD A.length 0 ∧ ix.getD A.length 0 < offs + e then
        op (f ix) (G (position A (ix.take A.length)) (ix.getD A.length 0 - offs) (position B (ix.drop (A.length + 1)))) else f ix) m m' := by
  generalize hb : B.prod = b at *
  have hS : offs * b + e * b ≤ d * b := by rw [← Nat.add_mul]; exact Nat.mul_le_mul_right b ho
  have hsz : (A ++ d :: B).prod = A.prod * (d * b) := by rw [axis_prod, hb]
  rcases Nat.eq_zero_or_pos (A.prod * (d * b)) with e0 | e0
  · have hno : ∀ ix, ¬ InRange ix (A ++ d :: B) := fun ix hi => by have := position_lt hi; omega
    refine ⟨m, ?_, hr.mk' fun ix hi => absurd hi (hno ix), fun _ _ => rfl⟩
    rcases Nat.eq_zero_or_pos A.prod with z | z
    · rw [z]; rfl
    · have : d * b = 0 := by rcases Nat.mul_eq_zero.1 e0 with h | h <;> omega
      rw [show e * b = 0 by omega]
      clear * -
      generalize A.prod = n
      show Res.forM (List.range n) m (fun m _ => .ok m) = .ok m
      generalize List.range n = l
      induction l with
      | nil => rfl
      | cons a l ih => rw [Res.forM_cons, Res.ok_bind, ih]
  have hbp : 0 < b := Nat.pos_of_ne_zero fun h => by rw [h] at e0; simp at e0
  have w0 : α := f []
  obtain ⟨m', h1, h2, h3⟩ := runs_core A.prod (d * b) (e * b) (offs * b) r.arr hS m (flat (A ++ d :: B) f w0)
    (fun j i => op (flat (A ++ d :: B) f w0 (j * (d * b) + (offs * b + i))) (G j (i / b) (i % b)))
    (fun j i m => updCell op m (r.arr + (j * (d * b) + offs * b + i)) (X + (j * (e * b) + i)))
    (fun c hc => hr.at w0 (by rw [hsz]; exact hc))
    (by
      intro j hj i hi m' hm
      have hiq : i / b < e := Nat.div_lt_of_lt_mul (by rw [Nat.mul_comm]; exact hi)
      have hir : i % b < b := Nat.mod_lt _ hbp
      have hie : i / b * b + i % b = i := by rw [Nat.mul_comm]; exact Nat.div_add_mod i b
      have hg := hG j hj (i / b) hiq (i % b) hir
      rw [hie] at hg
      rw [Nat.add_assoc (j * (d * b)), updCell_ok (a := flat (A ++ d :: B) f w0 (j * (d * b) + (offs * b + i))) (b := G j (i / b) (i % b))]
      · rw [hm _ fun k hk hne => by omega, hr.at w0 (by rw [hsz]; exact two_lt hj (by omega))]
      · rw [hm _ fun k hk hne => off_own (hr.asize.trans hsz) hg.2 k hk, hg.1])
  refine ⟨m', h1, axis_is hr ?_, fun c hc => h3 c fun k hk => off_own (hr.asize.trans hsz) hc k hk⟩
  intro ia k ib hia hk hib
  have hpb : position B ib < b := hb ▸ position_lt hib
  have hla := hia.length
  rw [← hla, getD_axis, List.take_left, show (ia ++ k :: ib).drop (ia.length + 1) = ib by rw [List.drop_append, List.drop_eq_nil_of_le (by omega)]; simp]
  rw [hb, h2 _ (position_lt hia) _ (two_lt hk hpb)]
  have hflat : flat (A ++ d :: B) f w0 (position A ia * (d * b) + (k * b + position B ib)) = f (ia ++ k :: ib) := by
    rw [← hb, ← pos_axis hla, flat_pos (GT.inRange_app hia (.cons hk hib))]
  by_cases c : offs ≤ k ∧ k < offs + e
  · rw [if_pos c, if_pos ((sub_lt hpb).2 c)]
    have hc2 : k * b + position B ib - offs * b = (k - offs) * b + position B ib := by
      rw [Nat.sub_mul]
      have := Nat.mul_le_mul_right b c.1
      omega
    have e1 := ((sub_lt hpb).2 c).1
    rw [show offs * b + (k * b + position B ib - offs * b) = k * b + position B ib by omega, hflat, hc2]
    rw [Nat.mul_comm (k - offs), Nat.mul_add_div hbp, Nat.div_eq_of_lt hpb, Nat.add_zero, Nat.mul_add_mod, Nat.mod_eq_of_lt hpb]
  · rw [if_neg c, if_neg fun h => c ((sub_lt hpb).1 h), hflat]

/-- A loop over all of a tensor with one axis singled out. -/
theorem take_core {r : RA} {A B : List Nat} {d : Nat} {f : List Nat → α} {m : Buf α} (hr : r.Is (A ++ d :: B) f m) (new : List Nat → α)
    (step : Nat → Nat → Nat → Buf α → Res (Buf α))
    (hs : ∀ ia, InRange ia A → ∀ k, k < d → ∀ ib, InRange ib B → ∀ m' : Buf α,
      (∀ c, ¬ r.Owns c → m' c = m c) → m' (r.arr + (position A ia * (d * B.prod) + k * B.prod + position B ib)) = some (f (ia ++ k :: ib)) →
      step (position A ia) k (position B ib) m' = m'.write (r.arr + (position A ia * (d * B.prod) + k * B.prod + position B ib)) (new (ia ++ k :: ib))) :
    ∃ m', (loop A.prod m fun j m => loop d m fun k m => loop B.prod m fun i m => step j k i m) = .ok m' ∧ r.Becomes (A ++ d :: B) new m m' := by
  have hsz : r.asize = A.prod * (d * B.prod) := by rw [hr.asize, axis_prod]
  have hlt : ∀ j, j < A.prod → ∀ k, k < d → ∀ i, i < B.prod → j * (d * B.prod) + k * B.prod + i < r.asize := fun j hj k hk i hi => by
    rw [hsz, Nat.add_assoc]; exact two_lt hj (two_lt hk hi)
  obtain ⟨m', h1, h2, h3⟩ := loop3_cells A.prod d B.prod (fun j k i => r.arr + (j * (d * B.prod) + k * B.prod + i)) (fun j k i => new (nth A j ++ k :: nth B i)) step m
    (by
      intro j hj k hk i hi j' hj' k' hk' i' hi' e
      obtain ⟨e1, e2⟩ := two_inj (two_lt hk hi) (two_lt hk' hi') (by omega : j * (d * B.prod) + (k * B.prod + i) = j' * (d * B.prod) + (k' * B.prod + i'))
      obtain ⟨e3, e4⟩ := two_inj hi hi' e2
      exact ⟨e1, e3, e4⟩)
    (by intro j hj k hk i hi; rw [Nat.add_assoc (j * _), axis_at hr hj hk hi]; rfl)
    (by
      intro j hj k hk i hi m' hm
      obtain ⟨a1, a2⟩ := nth_range hj
      obtain ⟨b1, b2⟩ := nth_range hi
      have := hs (nth A j) a1 k hk (nth B i) b1 m'
        (fun c hc => hm c fun j' hj' k' hk' i' hi' _ => not_owns hc rfl (hlt j' hj' k' hk' i' hi')) (by
          rw [a2, b2, hm _ fun j' hj' k' hk' i' hi' hne e => hne ?_, Nat.add_assoc (j * _), axis_at hr hj hk hi]
          obtain ⟨e1, e2⟩ := two_inj (two_lt hk' hi') (two_lt hk hi) (by omega : j' * (d * B.prod) + (k' * B.prod + i') = j * (d * B.prod) + (k * B.prod + i))
          obtain ⟨e3, e4⟩ := two_inj hi' hi e2
          exact ⟨e1, e3, e4⟩)
      rwa [a2, b2] at this)
  refine ⟨m', h1, axis_is hr fun ia k ib hia hk hib => ?_, fun c hc => h3 c fun j hj k hk i hi => not_owns hc rfl (hlt j hj k hk i hi)⟩
  have := h2 _ (position_lt hia) k hk _ (position_lt hib)
  rwa [nth_pos hia, nth_pos hib, Nat.add_assoc (_ * _)] at this

/-! ### C372: views -/

/-- Views with as many axes as the tensor have the entries of the tensor. -/
theorem C372_viewK {x : RA} {D : List Nat} {f : List Nat → α} {m : Buf α} (h : x.Is D f m) {k : Nat} (hk : D.length = k) :
    ∃ v, x.viewK k = .ok v ∧ v.ns = D ∧ v.Has m f := by
  have hs := h.strides'
  have hl : x.strides.length = k := by rw [hs, rmStrides_length, hk]
  refine ⟨⟨x.arr, D, rmStrides D⟩, ?_, rfl, fun ix hi => ?_⟩
  · rw [viewK, HV.ofDims, h.dims, decide_eq_true hk, Res.assrt_true, Res.ok_bind, firstK, if_pos (by omega), Res.ok_bind, firstK, if_pos (by omega), Res.ok_bind]
    rw [← hk, List.take_length, hs]
    congr 2
    rw [← rmStrides_length, List.take_length]
  · rw [HV.at']
    simp only at hi ⊢
    rw [dot_rmStrides _ _ hi.length, h.has ix hi]

/-- Other numbers of axes are refused. -/
theorem C372_viewK_refused {x : RA} {D : List Nat} {f : List Nat → α} {m : Buf α} (h : x.Is D f m) {k : Nat} (hk : D.length ≠ k) : x.viewK k = .throw := by
  rw [viewK, HV.ofDims, h.dims, decide_eq_false hk]; rfl

theorem C372_viewx {x : RA} {D : List Nat} {f : List Nat → α} {m : Buf α} (h : x.Is D f m) : x.viewx.ns = D ∧ x.viewx.Has m f := by
  refine ⟨h.dims, fun ix hi => ?_⟩
  have hi' : InRange ix D := by rw [← h.dims]; exact hi
  rw [HV.at', viewx]
  simp only
  rw [h.strides', dot_rmStrides _ _ hi'.length, h.has ix hi']

theorem regular_append (t : Nat) (l : List (Nat × Nat)) (s d : Nat) :
    regularFrom t (l ++ [(s, d)]) = (regularFrom t l && decide (s = t * (l.map Prod.snd).prod)) := by
  induction l generalizing t with
  | nil => simp [regularFrom]
  | cons p l ih =>
    obtain ⟨a, b⟩ := p
    rw [List.cons_append, regularFrom, regularFrom]
    split
    · rfl
    · rw [ih]; simp [Nat.mul_assoc]

theorem Is.regular {x : RA} {D : List Nat} {f : List Nat → α} {m : Buf α} (h : x.Is D f m) : x.isRegular = true := by
  rw [RA.isRegular, h.strides', h.dims]
  clear h
  induction D with
  | nil => rfl
  | cons d D ih =>
    rw [rmStrides_cons, List.zip_cons_cons, List.reverse_cons, regular_append, ih, List.map_reverse, List.prod_reverse,
      List.map_snd_zip (by rw [rmStrides_length])]
    simp

/-- The flattened view lists all entries. -/
theorem C372_flattened {x : RA} {D : List Nat} {f : List Nat → α} {m : Buf α} (h : x.Is D f m) :
    ∃ v, x.flattenedView = .ok v ∧ v.n0 = D.prod ∧ ∀ ix, InRange ix D → m (v.cell (position D ix)) = some (f ix) := by
  refine ⟨⟨x.arr, x.asize, 1⟩, by rw [flattenedView, Is.regular h]; rfl, h.asize, fun ix hi => ?_⟩
  show m (x.arr + 1 * _) = _
  rw [Nat.one_mul, h.has ix hi]

/-- Blocks of a matrix; -1 stands for all that is left. -/
theorem C372_block2 {x : RA} {a b : Nat} {f : List Nat → α} {m : Buf α} (h : x.Is [a, b] f m) {i0 i1 : Nat} {m0 m1 : Int} {n0 n1 : Nat}
    (h0 : m0 = n0 ∨ m0 = -1 ∧ i0 + n0 = a) (h1 : m1 = n1 ∨ m1 = -1 ∧ i1 + n1 = b) (l0 : i0 + n0 ≤ a) (l1 : i1 + n1 ≤ b) :
    ∃ v, x.block2 i0 i1 m0 m1 = .ok v ∧ v.n0 = n0 ∧ v.n1 = n1 ∧ ∀ i, i < n0 → ∀ j, j < n1 → m (v.cell i j) = some (f [i0 + i, i1 + j]) := by
  have hs : x.strides = [b, 1] := by rw [h.strides]; simp
  have e0 : (if m0 = -1 then (x.dims.getD 0 0 : Int) - i0 else m0) = n0 := by
    rw [h.dims]; split <;> (try simp) <;> omega
  have e1 : (if m1 = -1 then (x.dims.getD 1 0 : Int) - i1 else m1) = n1 := by
    rw [h.dims]; split <;> (try simp) <;> omega
  refine ⟨⟨x.arr + i0 * b + i1 * 1, n0, n1, b, 1⟩, ?_, rfl, rfl, fun i hi j hj => ?_⟩
  · rw [block2, decide_eq_true (by rw [h.dims]; rfl), Res.assrt_true, Res.ok_bind]
    simp only [e0, e1, hs]
    rw [show Res.need (decide ((0 : Int) ≤ n0 ∧ (0 : Int) ≤ n1)) = .ok () by rw [decide_eq_true (by omega)]; rfl, Res.ok_bind]
    rfl
  · have := h.has [i0 + i, i1 + j] (.cons (by omega) (.cons (by omega) .nil))
    rw [← this, RV2.cell]
    congr 1
    simp [position]
    ring

/-- Blocks of a tensor with three axes. -/
theorem C372_block3 {x : RA} {a b c : Nat} {f : List Nat → α} {m : Buf α} (h : x.Is [a, b, c] f m) {i0 i1 i2 : Nat} {m0 m1 m2 : Int} {n0 n1 n2 : Nat}
    (h0 : m0 = n0 ∨ m0 = -1 ∧ i0 + n0 = a) (h1 : m1 = n1 ∨ m1 = -1 ∧ i1 + n1 = b) (h2 : m2 = n2 ∨ m2 = -1 ∧ i2 + n2 = c)
    (l0 : i0 + n0 ≤ a) (l1 : i1 + n1 ≤ b) (l2 : i2 + n2 ≤ c) :
    ∃ v, x.block3 i0 i1 i2 m0 m1 m2 = .ok v ∧ v.n0 = n0 ∧ v.n1 = n1 ∧ v.n2 = n2 ∧
      ∀ i, i < n0 → ∀ j, j < n1 → ∀ k, k < n2 → m (v.cell i j k) = some (f [i0 + i, i1 + j, i2 + k]) := by
  have hs : x.strides = [b * c, c, 1] := by rw [h.strides]; simp
  have e0 : (if m0 = -1 then (x.dims.getD 0 0 : Int) - i0 else m0) = n0 := by
    rw [h.dims]; split <;> (try simp) <;> omega
  have e1 : (if m1 = -1 then (x.dims.getD 1 0 : Int) - i1 else m1) = n1 := by
    rw [h.dims]; split <;> (try simp) <;> omega
  have e2 : (if m2 = -1 then (x.dims.getD 2 0 : Int) - i2 else m2) = n2 := by
    rw [h.dims]; split <;> (try simp) <;> omega
  refine ⟨⟨x.arr + i0 * (b * c) + i1 * c + i2 * 1, n0, n1, n2, b * c, c, 1⟩, ?_, rfl, rfl, rfl, fun i hi j hj k hk => ?_⟩
  · rw [block3, decide_eq_true (by rw [h.dims]; rfl), Res.assrt_true, Res.ok_bind]
    simp only [e0, e1, e2, hs]
    rw [show Res.need (decide ((0 : Int) ≤ n0 ∧ (0 : Int) ≤ n1 ∧ (0 : Int) ≤ n2)) = .ok () by rw [decide_eq_true (by omega)]; rfl, Res.ok_bind]
    rfl
  · have := h.has [i0 + i, i1 + j, i2 + k] (.cons (by omega) (.cons (by omega) (.cons (by omega) .nil)))
    rw [← this, RV3.cell]
    congr 1
    simp [position]
    ring

theorem get_at {β : Type} {l : List β} {i : Nat} {v : β} (h : l[i]? = some v) : Res.get l i = .ok v := by rw [Res.get, h]

theorem last_stride {x : RA} {D : List Nat} {f : List Nat → α} {m : Buf α} (h : x.Is D f m) : Res.get x.strides (x.strides.length - 1) = .ok 1 := by
  have hl : x.strides.length = D.length := by rw [h.strides', rmStrides_length]
  have hp : 0 < D.length := List.length_pos_iff.2 h.ne
  rw [hl, h.stride (by omega), List.drop_eq_nil_of_le (by omega)]; rfl

theorem picking_ok {x : RA} {A B : List Nat} {d : Nat} {f : List Nat → α} {m : Buf α} (h : x.Is (A ++ d :: B) f m) (hA : A ≠ []) :
    x.view3Picking A.length = .ok ⟨x.arr, A.prod, d, B.prod, d * B.prod, B.prod, 1⟩ := by
  have hA' : 0 < A.length := List.length_pos_iff.2 hA
  have hl : x.dims.length = A.length + (B.length + 1) := by rw [h.dims]; simp
  rw [view3Picking, decide_eq_true hA', Res.assrt_true, Res.ok_bind, decide_eq_true (by omega), Res.assrt_true, Res.ok_bind]
  rw [get_at (v := d) (by rw [h.dims, List.getElem?_append_right (Nat.le_refl _)]; simp), Res.ok_bind,
    h.stride (n := A.length - 1) (by rw [← h.dims]; omega), Res.ok_bind, h.stride (n := A.length) (by rw [← h.dims]; omega), Res.ok_bind, last_stride h, Res.ok_bind]
  rw [h.dims, show A.length - 1 + 1 = A.length by omega, List.take_left, List.drop_left,
    show (A ++ d :: B).drop (A.length + 1) = B by rw [List.drop_append, List.drop_eq_nil_of_le (by omega)]; simp, List.prod_cons]

/-- `view3_picking(j)`: the axes before `j` in one, axis `j`, and the axes after it in one. -/
theorem C372_picking {x : RA} {A B : List Nat} {d : Nat} {f : List Nat → α} {m : Buf α} (h : x.Is (A ++ d :: B) f m) (hA : A ≠ []) :
    ∃ v, x.view3Picking A.length = .ok v ∧ v.n0 = A.prod ∧ v.n1 = d ∧ v.n2 = B.prod ∧
      ∀ ia k ib, InRange ia A → k < d → InRange ib B → m (v.cell (position A ia) k (position B ib)) = some (f (ia ++ k :: ib)) := by
  refine ⟨_, picking_ok h hA, rfl, rfl, rfl, fun ia k ib h1 h2 h3 => ?_⟩
  have := h.has _ (GT.inRange_app h1 (.cons h2 h3))
  rw [pos_axis h1.length] at this
  rw [← this, RV3.cell]
  congr 1
  simp only
  ring

/-- It refuses the first axis. -/
theorem C372_picking_first (x : RA) : x.view3Picking 0 = .throw := rfl

example : ∃ v, RA.sample.block2 0 1 (-1) 2 = .ok v ∧ v.cell 1 1 = 12 := ⟨_, rfl, rfl⟩

/-! ### C373: windows -/

/-- `window2_view`: the strides are the list `[dev]`, so that a second index reads outside it.  Full statement: entry `ix` of the window is the entry of the
tensor with `i0`, `i1` added to the first two indices. -/
theorem C373_window2_fails {x : RA} {D : List Nat} {f : List Nat → α} {m : Buf α} (h : x.Is D f m) (hl : 2 ≤ D.length) (i0 i1 n0 n1 i j : Nat) (rest : List Nat) :
    ∃ v, x.window2 i0 i1 n0 n1 = .ok v ∧ hvGet v (i :: j :: rest) m = .ub := by
  refine ⟨⟨x.arr + i0 * (D.drop 1).prod + i1 * (D.drop 2).prod, (x.dims.set 0 n0).set 1 n1, [0]⟩, ?_, ?_⟩
  · rw [window2, decide_eq_true (by rw [h.dims]; omega), Res.assrt_true, Res.ok_bind, h.stride (by omega), Res.ok_bind, h.stride (by omega), Res.ok_bind]
  · have : stridesOffs [0] (i :: j :: rest) = .ub := by
      rw [stridesOffs, loop]
      rw [show (i :: j :: rest).length = rest.length + 1 + 1 from rfl, List.range_succ_eq_map, List.range_succ_eq_map]
      rfl
    rw [hvGet, this]; rfl

/-- `window3_view` too, and its third offset is not used.  Full statement as before with three indices. -/
theorem C373_window3_fails {x : RA} {D : List Nat} {f : List Nat → α} {m : Buf α} (h : x.Is D f m) (hl : 3 ≤ D.length) (i0 i1 i2 i2' n0 n1 n2 i j : Nat)
    (rest : List Nat) : ∃ v, x.window3 i0 i1 i2 n0 n1 n2 = .ok v ∧ hvGet v (i :: j :: rest) m = .ub ∧ x.window3 i0 i1 i2' n0 n1 n2 = .ok v := by
  have e : ∀ k, x.window3 i0 i1 k n0 n1 n2 = .ok ⟨x.arr + i0 * (D.drop 1).prod + i1 * (D.drop 2).prod, ((x.dims.set 0 n0).set 1 n1).set 2 n2, [0]⟩ := fun k => by
    rw [window3, decide_eq_true (by rw [h.dims]; omega), Res.assrt_true, Res.ok_bind, h.stride (by omega), Res.ok_bind, h.stride (by omega), Res.ok_bind]
  refine ⟨_, e i2, ?_, e i2'⟩
  have : stridesOffs [0] (i :: j :: rest) = .ub := by
    rw [stridesOffs, loop]
    rw [show (i :: j :: rest).length = rest.length + 1 + 1 from rfl, List.range_succ_eq_map, List.range_succ_eq_map]
    rfl
  rw [hvGet, this]; rfl

/-- Fewer axes are refused. -/
theorem C373_refused_partial {x : RA} (i0 i1 i2 n0 n1 n2 : Nat) :
    (x.dims.length < 2 → x.window2 i0 i1 n0 n1 = .throw) ∧ (x.dims.length < 3 → x.window3 i0 i1 i2 n0 n1 n2 = .throw) := by
  refine ⟨fun h => ?_, fun h => ?_⟩
  · rw [window2, decide_eq_false (by omega)]; rfl
  · rw [window3, decide_eq_false (by omega)]; rfl

example : (2 : Nat) ≤ [2, 3].length := by decide

/-! ### C374: chunks -/

theorem fits_axis (A B : List Nat) {d e : Nat} (he : e ≤ d) {r x : RA} (hr : r.dims = A ++ d :: B) (hx : x.dims = A ++ e :: B) :
    chunkFits r x A.length = true := by
  rw [chunkFits, List.all_eq_true]
  intro i hi
  rw [hr, hx]
  split
  · next h =>
    rw [decide_eq_true_eq]
    rcases Nat.lt_or_gt_of_ne h with c | c
    · rw [List.getD_append _ _ _ _ c, List.getD_append _ _ _ _ c]
    · rw [List.getD_append_right _ _ _ _ (by omega), List.getD_append_right _ _ _ _ (by omega)]
      obtain ⟨k, hk⟩ : ∃ k, i - A.length = k + 1 := ⟨i - A.length - 1, by omega⟩
      rw [hk, List.getD_cons_succ, List.getD_cons_succ]
  · next h =>
    rw [decide_eq_true_eq, show i = A.length by omega, getD_axis, getD_axis]
    exact he

theorem drop_axis (A B : List Nat) (d : Nat) : (A ++ d :: B).drop (A.length + 1) = B := by
  rw [List.drop_append, List.drop_eq_nil_of_le (by omega)]; simp

/-- Combining a tensor into part of an axis of a larger one: entries `offs`, …, `offs+e-1` of that axis. -/
theorem C374_toChunk (op : α → α → α) {r x : RA} {A B : List Nat} {d e offs : Nat} {f g : List Nat → α} {m : Buf α} (hr : r.Is (A ++ d :: B) f m)
    (hx : x.Is (A ++ e :: B) g m) (ho : offs + e ≤ d) (hz : e * B.prod ≠ 0) (ha : r.Apart x) :
    ∃ m', toChunk op r A.length offs x m = .ok m' ∧ r.Becomes (A ++ d :: B) (fun ix =>
      if offs ≤ ix.getD A.length 0 ∧ ix.getD A.length 0 < offs + e then op (f ix) (g (ix.set A.length (ix.getD A.length 0 - offs))) else f ix) m m' := by
  have hsup : x.asize / (e * B.prod) = A.prod := by rw [hx.asize, axis_prod]; exact Nat.mul_div_cancel _ (Nat.pos_of_ne_zero hz)
  obtain ⟨m', h1, h2⟩ := put_core op (X := x.arr) hr ho (fun a k b => g (nth A a ++ k :: nth B b)) (fun a h1 k h2 b h3 =>
    ⟨axis_at hx h1 h2 h3, fun ho => ha _ ho (hx.owns (by rw [axis_prod]; exact two_lt h1 (two_lt h2 h3)))⟩)
  refine ⟨m', ?_, becomes_congr h2 fun ix hi => ?_⟩
  · rw [toChunk, decide_eq_true (by rw [hr.dims, hx.dims]; simp), Res.assrt_true, Res.ok_bind, fits_axis A B (by omega) hr.dims hx.dims, Res.assrt_true, Res.ok_bind,
      hx.above (by simp), Res.ok_bind, List.drop_left, List.prod_cons,
      show Res.need (decide (e * B.prod ≠ 0)) = .ok () by rw [decide_eq_true hz]; rfl, Res.ok_bind]
    simp only [hsup]
    rw [hr.above (by simp), Res.ok_bind, List.drop_left, List.prod_cons, hr.stride (by simp), Res.ok_bind, drop_axis]
    exact h1
  · obtain ⟨ia, k, ib, rfl, a1, a2, a3, a4⟩ := range_axis hi
    rw [← a4, getD_axis, List.take_left, drop_axis, nth_pos a1, nth_pos a3, set_axis]

/-- Sizes that do not agree are refused. -/
theorem C374_refused (op : α → α → α) (r x : RA) (ix offs : Nat) (m : Buf α)
    (h : r.dims.length ≠ x.dims.length ∨ (∃ i, i < r.dims.length ∧ i ≠ ix ∧ r.dims.getD i 0 ≠ x.dims.getD i 0) ∨
      ix < r.dims.length ∧ r.dims.getD ix 0 < x.dims.getD ix 0) : toChunk op r ix offs x m = .throw := by
  by_cases hl : r.dims.length = x.dims.length
  · have : chunkFits r x ix = false := by
      rw [chunkFits, List.all_eq_false]
      rcases h with h | ⟨i, h1, h2, h3⟩ | ⟨h1, h2⟩
      · exact absurd hl h
      · exact ⟨i, List.mem_range.2 h1, by simp only [h2, ne_eq, not_false_eq_true, if_true, decide_eq_true_eq]; exact h3⟩
      · exact ⟨ix, List.mem_range.2 h1, by simp only [ne_eq, not_true_eq_false, if_false, decide_eq_true_eq]; omega⟩
    rw [toChunk, decide_eq_true hl, Res.assrt_true, Res.ok_bind, this]; rfl
  · rw [toChunk, decide_eq_false hl]; rfl

/-- A new tensor from `n` entries of an axis. -/
theorem C374_chunk {x : RA} {A B : List Nat} {d n offs : Nat} {g : List Nat → α} {m : Buf α} (hx : x.Is (A ++ d :: B) g m) (ho : offs + n ≤ d)
    (hz : d * B.prod ≠ 0) (junk : Nat → α) (q : Nat) (hf : Free m q (cells (A ++ n :: B))) :
    ∃ y m', chunk junk q x A.length offs n m = .ok (y, m') ∧
      y.Fresh q (A ++ n :: B) (fun ix => g (ix.set A.length (ix.getD A.length 0 + offs))) m m' ∧ x.Is (A ++ d :: B) g m' := by
  have hne : A ++ n :: B ≠ [] := by simp
  have hi0 := raw_is hne junk q m
  have hcl := (cells_pos (A ++ n :: B)).2
  have hsup : x.asize / (B.prod * d) = A.prod := by
    rw [hx.asize, axis_prod, Nat.mul_comm d]; exact Nat.mul_div_cancel _ (Nat.pos_of_ne_zero (by rwa [Nat.mul_comm] at hz))
  have hout : ∀ c, x.Owns c → ¬ (⟨q, A ++ n :: B, rmStrides (A ++ n :: B), (A ++ n :: B).prod, cells (A ++ n :: B), cells (A ++ n :: B), -1, false⟩ : RA).Owns c :=
    fun c hc ho => hx.not_free hf hc ⟨ho.1, by have := ho.2; simp only at this; omega⟩
  obtain ⟨m', h1, h2⟩ := take_core hi0 (fun ix => g (ix.set A.length (ix.getD A.length 0 + offs)))
    (fun j a i m => copyCell m (q + (j * (n * B.prod) + a * B.prod + i)) (x.arr + (j * (d * B.prod) + (a + offs) * B.prod + i))) (by
    intro ia a1 k a2 ib a3 m' hm _
    have hin : position A ia * (d * B.prod) + ((k + offs) * B.prod + position B ib) < (A ++ d :: B).prod := by
      rw [axis_prod]; exact two_lt (position_lt a1) (two_lt (by omega) (position_lt a3))
    have hcell : m' (x.arr + (position A ia * (d * B.prod) + (k + offs) * B.prod + position B ib)) = some (g (ia ++ (k + offs) :: ib)) := by
      rw [Nat.add_assoc (position A ia * _), hm _ (hout _ (hx.owns hin)), raw_off _ _ (hx.not_free hf (hx.owns hin)), axis_at hx (position_lt a1) (by omega) (position_lt a3),
        nth_pos a1, nth_pos a3]
    rw [copyCell, read_ok hcell, Res.ok_bind, ← a1.length, getD_axis, set_axis])
  refine ⟨_, m', ?_, fresh_of rfl rfl h2, hx.keep fun c hc => ?_⟩
  · rw [chunk, hx.dims, gvSet, if_pos (by simp), Res.ok_bind, set_axis, raw_ok hne, Res.ok_bind]
    simp only
    rw [hx.stride (by simp), Res.ok_bind, drop_axis, get_at (v := d) (by rw [List.getElem?_append_right (Nat.le_refl _)]; simp), Res.ok_bind,
      show Res.need (decide (B.prod * d ≠ 0)) = .ok () by rw [decide_eq_true (by rwa [Nat.mul_comm])]; rfl, Res.ok_bind, hsup,
      hx.above (by simp), Res.ok_bind, List.drop_left, List.prod_cons, hi0.above (by simp), Res.ok_bind, List.drop_left, List.prod_cons,
      hi0.stride (by simp), Res.ok_bind, drop_axis, h1, Res.ok_bind]
  · rw [h2.2 c (hout c hc), raw_off _ _ (hx.not_free hf hc)]

example : ∃ m', toChunk (fun _ b => b) ⟨0, [2, 3], [3, 1], 6, 32, 32, -1, false⟩ 1 1 ⟨6, [2, 2], [2, 1], 4, 32, 32, -1, false⟩ (Buf.ofList [1, 2, 3, 4, 5, 6, 10, 20, 30, 40]) = .ok m' ∧
    (List.range 6).map m' = [1, 10, 20, 4, 30, 40].map (some : Int → Option Int) := ⟨_, rfl, rfl⟩

/-! ### C375: add_chunk_of -/

/-- `add_chunk_of(x,ix,offs,n)` is right when the number of rounds, computed from the size of `x` and the axes of this tensor, happens to be right.  Missing: all
other sizes. -/
theorem C375_addChunkOf_partial [Add α] {r x : RA} {A B : List Nat} {d e n offs : Nat} {f g : List Nat → α} {m : Buf α} (hr : r.Is (A ++ e :: B) f m)
    (hx : x.Is (A ++ d :: B) g m) (he : e ≤ d) (hn : n ≤ e) (ho : offs + n ≤ d) (hz : B.prod * e ≠ 0) (hd : A.prod * (d - e) < e) (ha : r.Apart x) :
    ∃ m', addChunkOf r x A.length offs n m = .ok m' ∧ r.Becomes (A ++ e :: B) (fun ix =>
      if ix.getD A.length 0 < n then f ix + g (ix.set A.length (ix.getD A.length 0 + offs)) else f ix) m m' := by
  have hb : 0 < B.prod := Nat.pos_of_ne_zero fun h => by rw [h] at hz; simp at hz
  have he0 : 0 < e := Nat.pos_of_ne_zero fun h => by rw [h] at hz; simp at hz
  have hsup : x.asize / (B.prod * e) = A.prod := by
    rw [hx.asize, axis_prod, ← Nat.mul_assoc, Nat.mul_comm (A.prod * d), Nat.mul_div_mul_left _ _ hb]
    apply Nat.div_eq_of_lt_le
    · exact Nat.mul_le_mul_left _ he
    · rw [show d = e + (d - e) by omega, Nat.mul_add, Nat.add_mul]; omega
  have hsz : r.asize = A.prod * (e * B.prod) := by rw [hr.asize, axis_prod]
  have hlt : ∀ j, j < A.prod → ∀ k, k < e → ∀ i, i < B.prod → j * (e * B.prod) + k * B.prod + i < r.asize := fun j hj k hk i hi => by
    rw [hsz, Nat.add_assoc]; exact two_lt hj (two_lt hk hi)
  have hin : ∀ j, j < A.prod → ∀ k, k < n → ∀ i, i < B.prod → x.Owns (x.arr + (j * (d * B.prod) + ((k + offs) * B.prod + i))) := fun j hj k hk i hi =>
    hx.owns (by rw [axis_prod]; exact two_lt hj (two_lt (by omega) hi))
  obtain ⟨m', h1, h2, h3⟩ := loop3_cells A.prod n B.prod (fun j k i => r.arr + (j * (e * B.prod) + k * B.prod + i))
    (fun j k i => f (nth A j ++ k :: nth B i) + g (nth A j ++ (k + offs) :: nth B i))
    (fun j k i m => updCell (· + ·) m (r.arr + (j * (e * B.prod) + k * B.prod + i)) (x.arr + (j * (d * B.prod) + (k + offs) * B.prod + i))) m
    (by
      intro j hj k hk i hi j' hj' k' hk' i' hi' e'
      obtain ⟨e1, e2⟩ := two_inj (two_lt (show k < e by omega) hi) (two_lt (show k' < e by omega) hi')
        (by omega : j * (e * B.prod) + (k * B.prod + i) = j' * (e * B.prod) + (k' * B.prod + i'))
      obtain ⟨e3, e4⟩ := two_inj hi hi' e2
      exact ⟨e1, e3, e4⟩)
    (by intro j hj k hk i hi; rw [Nat.add_assoc (j * _), axis_at hr hj (by omega) hi]; rfl)
    (by
      intro j hj k hk i hi m' hm
      apply updCell_ok
      · rw [hm _ fun j' hj' k' hk' i' hi' hne e' => hne ?_, Nat.add_assoc (j * _), axis_at hr hj (by omega) hi]
        obtain ⟨e1, e2⟩ := two_inj (two_lt (show k' < e by omega) hi') (two_lt (show k < e by omega) hi)
          (by omega : j' * (e * B.prod) + (k' * B.prod + i') = j * (e * B.prod) + (k * B.prod + i))
        obtain ⟨e3, e4⟩ := two_inj hi' hi e2
        exact ⟨e1, e3, e4⟩
      · rw [Nat.add_assoc (j * (d * _)), hm _ fun j' hj' k' hk' i' hi' _ e' => ha _ (⟨Nat.le_add_right _ _, by have := hlt j' hj' k' (by omega) i' hi'; omega⟩) (e' ▸ hin j hj k hk i hi),
          axis_at hx hj (by omega) hi])
  refine ⟨m', ?_, axis_is hr fun ia k ib a1 a2 a3 => ?_, fun c hc => h3 c fun j hj k hk i hi => not_owns hc rfl (hlt j hj k (by omega) i hi)⟩
  · rw [addChunkOf, decide_eq_true (by rw [hr.dims, hx.dims]; simp), Res.assrt_true, Res.ok_bind, fits_axis A B he hx.dims hr.dims, Res.assrt_true, Res.ok_bind,
      hr.stride (by simp), Res.ok_bind, drop_axis, get_at (v := e) (by rw [hr.dims, List.getElem?_append_right (Nat.le_refl _)]; simp), Res.ok_bind,
      show Res.need (decide (B.prod * e ≠ 0)) = .ok () by rw [decide_eq_true hz]; rfl, Res.ok_bind]
    simp only [hsup]
    rw [hr.above (by simp), Res.ok_bind, List.drop_left, List.prod_cons, hx.above (by simp), Res.ok_bind, List.drop_left, List.prod_cons,
      hx.stride (by simp), Res.ok_bind, drop_axis]
    exact h1
  · rw [← a1.length, getD_axis, set_axis]
    by_cases c : k < n
    · have := h2 _ (position_lt a1) k c _ (position_lt a3)
      rw [nth_pos a1, nth_pos a3, Nat.add_assoc (_ * _)] at this
      rw [if_pos c, this]
    · rw [if_neg c, h3, axis_at hr (position_lt a1) a2 (position_lt a3), nth_pos a1, nth_pos a3]
      intro j hj k' hk' i hi e'
      obtain ⟨e1, e2⟩ := two_inj (two_lt a2 (position_lt a3)) (two_lt (show k' < e by omega) hi)
        (by omega : position A ia * (e * B.prod) + (k * B.prod + position B ib) = j * (e * B.prod) + (k' * B.prod + i))
      obtain ⟨e3, e4⟩ := two_inj (position_lt a3) hi e2
      omega

/-- Half of a vector of 64 entries, taken into a new tensor of zeros: there is a second round, which writes past the end of the array. -/
theorem C375_addChunkOf_fails : ∃ r m', zero (fun _ => (9 : Int)) 64 [32] (fun c => if c < 64 then some 1 else none) = .ok (r, m') ∧
    addChunkOf r ⟨0, [64], [1], 64, 64, 64, -1, false⟩ 0 0 32 m' = .ub := ⟨_, _, rfl, rfl⟩

/-! ### C376: slices -/

theorem slice_fits (A B : List Nat) {d : Nat} {r x : RA} (hr : r.dims = A ++ d :: B) (hx : x.dims = A ++ B) : sliceFits r x A.length = true := by
  rw [sliceFits, Bool.and_eq_true, List.all_eq_true, List.all_eq_true]
  refine ⟨fun i hi => ?_, fun i hi => ?_⟩
  · rw [List.mem_range] at hi
    rw [hr, hx, decide_eq_true_eq, List.getD_append _ _ _ _ hi, List.getD_append _ _ _ _ hi]
  · rw [hr, hx, decide_eq_true_eq, List.getD_append_right _ _ _ _ (by omega), List.getD_append_right _ _ _ _ (by omega),
      show A.length + i + 1 - A.length = i + 1 by omega, show A.length + i - A.length = i by omega, List.getD_cons_succ]

theorem one_run (e : Nat) (B : List Nat) (a k b : Nat) (he : e = 1) (hk : k < e) : a * (e * B.prod) + (k * B.prod + b) = a * B.prod + b := by
  subst he
  rw [show k = 0 by omega]; simp

/-- Adding to one slice. -/
theorem C376_addToSlice [Add α] {r x : RA} {A B : List Nat} {d offs : Nat} {f g : List Nat → α} {m : Buf α} (hr : r.Is (A ++ d :: B) f m)
    (hx : x.Is (A ++ B) g m) (ho : offs < d) (hz : B.prod ≠ 0) (ha : r.Apart x) :
    ∃ m', r.addToSlice A.length offs x m = .ok m' ∧ r.Becomes (A ++ d :: B) (fun ix =>
      if ix.getD A.length 0 = offs then f ix + g (ix.eraseIdx A.length) else f ix) m m' := by
  have hsup : x.asize / B.prod = A.prod := by rw [hx.asize, List.prod_append]; exact Nat.mul_div_cancel _ (Nat.pos_of_ne_zero hz)
  obtain ⟨m', h1, h2⟩ := put_core (· + ·) (X := x.arr) (e := 1) (offs := offs) hr (by omega) (fun a k b => g (nth A a ++ nth B b)) (fun a h1 k h2 b h3 => by
    rw [one_run 1 B a k b rfl h2]
    exact ⟨pair_at hx h1 h3, fun ho => ha _ ho (hx.owns (by rw [List.prod_append]; exact two_lt h1 h3))⟩)
  refine ⟨m', ?_, becomes_congr h2 fun ix hi => ?_⟩
  · rw [addToSlice, decide_eq_true (by rw [hr.dims, hx.dims]; simp; omega), Res.assrt_true, Res.ok_bind, slice_fits A B hr.dims hx.dims, Res.assrt_true, Res.ok_bind,
      hx.above (by simp), Res.ok_bind, List.drop_left,
      show Res.need (decide (B.prod ≠ 0)) = .ok () by rw [decide_eq_true hz]; rfl, Res.ok_bind]
    simp only [hsup]
    rw [hr.above (by simp), Res.ok_bind, List.drop_left, List.prod_cons, hr.stride (by simp), Res.ok_bind, drop_axis]
    simp only [Nat.one_mul] at h1
    exact h1
  · obtain ⟨ia, k, ib, rfl, a1, a2, a3, a4⟩ := range_axis hi
    rw [← a4, getD_axis, List.take_left, drop_axis, nth_pos a1, nth_pos a3, erase_axis]
    by_cases c : k = offs
    · rw [if_pos c, if_pos (by omega)]
    · rw [if_neg c, if_neg (by omega)]

/-- Adding one tensor to each slice. -/
theorem C376_addToSlices [Add α] {r : RA} {A B : List Nat} {d : Nat} {f : List Nat → α} {m : Buf α} (hr : r.Is (A ++ d :: B) f m)
    (v : List RA) (g : Nat → List Nat → α) (hl : v.length = d) (hd : 0 < d) (hz : B.prod ≠ 0)
    (hv : ∀ (k : Nat) (x : RA), v[k]? = some x → x.Is (A ++ B) (g k) m ∧ r.Apart x) :
    ∃ m', r.addToSlices A.length v m = .ok m' ∧ r.Becomes (A ++ d :: B) (fun ix => f ix + g (ix.getD A.length 0) (ix.eraseIdx A.length)) m m' := by
  obtain ⟨x0, hx0⟩ : ∃ x, v[0]? = some x := ⟨_, List.getElem?_eq_getElem (by omega)⟩
  obtain ⟨hi0, _⟩ := hv 0 x0 hx0
  have hsup : x0.asize / B.prod = A.prod := by rw [hi0.asize, List.prod_append]; exact Nat.mul_div_cancel _ (Nat.pos_of_ne_zero hz)
  have key : ∀ n, n ≤ d → ∃ m', (loop n m fun a m => loop A.prod m fun j m => do
      let x ← Res.get v a
      loop B.prod m fun i m => updCell (· + ·) m (r.arr + (j * (d * B.prod) + a * B.prod + i)) (x.arr + (j * B.prod + i))) = .ok m' ∧
      r.Becomes (A ++ d :: B) (fun ix => if ix.getD A.length 0 < n then f ix + g (ix.getD A.length 0) (ix.eraseIdx A.length) else f ix) m m' := by
    intro n
    induction n with
    | zero => exact fun _ => ⟨m, rfl, hr.mk' fun ix hi => by rw [hr.has ix hi, if_neg (by omega)], fun _ _ => rfl⟩
    | succ n ih =>
      intro hn
      obtain ⟨m1, e1, e2⟩ := ih (by omega)
      obtain ⟨x, hx⟩ : ∃ x, v[n]? = some x := ⟨_, List.getElem?_eq_getElem (by omega)⟩
      obtain ⟨hi, hap⟩ := hv n x hx
      have hi1 : x.Is (A ++ B) (g n) m1 := hi.keep fun c hc => e2.2 c fun ho => hap c ho hc
      obtain ⟨m2, h1, h2⟩ := put_core (· + ·) (X := x.arr) (e := 1) (offs := n) e2.1 (by omega) (fun a k b => g n (nth A a ++ nth B b)) (fun a h1 k h2 b h3 => by
        rw [one_run 1 B a k b rfl h2]
        exact ⟨pair_at hi1 h1 h3, fun ho => hap _ ho (hi1.owns (by rw [List.prod_append]; exact two_lt h1 h3))⟩)
      refine ⟨m2, ?_, becomes_congr ⟨h2.1, fun c hc => (h2.2 c hc).trans (e2.2 c hc)⟩ fun ix hi => ?_⟩
      · rw [loop_snoc, e1, Res.ok_bind]
        simp only [Nat.one_mul] at h1
        rw [← h1]
        apply loop_congr
        intro j _ s
        rw [get_at hx, Res.ok_bind]
      · obtain ⟨ia, k, ib, rfl, a1, a2, a3, a4⟩ := range_axis hi
        rw [← a4, getD_axis, List.take_left, drop_axis, nth_pos a1, nth_pos a3, erase_axis]
        by_cases c : k = n
        · subst c
          rw [if_pos (by omega), if_neg (by omega), if_pos (by omega)]
        · rw [if_neg (by omega)]
          by_cases c' : k < n
          · rw [if_pos c', if_pos (by omega)]
          · rw [if_neg c', if_neg (by omega)]
  obtain ⟨m', h1, h2⟩ := key d (Nat.le_refl _)
  refine ⟨m', ?_, becomes_congr h2 fun ix hi => ?_⟩
  · rw [addToSlices, get_at (v := d) (by rw [hr.dims, List.getElem?_append_right (Nat.le_refl _)]; simp), Res.ok_bind, decide_eq_true hl, Res.assrt_true, Res.ok_bind,
      get_at hx0, Res.ok_bind, decide_eq_true (by rw [hr.dims, hi0.dims]; simp; omega), Res.assrt_true, Res.ok_bind, slice_fits A B hr.dims hi0.dims, Res.assrt_true, Res.ok_bind,
      hi0.above (by simp), Res.ok_bind, List.drop_left,
      show Res.need (decide (B.prod ≠ 0)) = .ok () by rw [decide_eq_true hz]; rfl, Res.ok_bind]
    simp only [hsup]
    rw [hr.above (by simp), Res.ok_bind, List.drop_left, List.prod_cons, hr.stride (by simp), Res.ok_bind, drop_axis]
    exact h1
  · obtain ⟨ia, k, ib, rfl, a1, a2, a3, a4⟩ := range_axis hi
    rw [← a4, getD_axis, if_pos a2]

/-- The two loops that write all of a tensor with axes `A` and `B`. -/
theorem pair_core {r : RA} {A B : List Nat} {f : List Nat → α} {m : Buf α} (hr : r.Is (A ++ B) f m) (new : List Nat → α)
    (step : Nat → Nat → Buf α → Res (Buf α))
    (hs : ∀ ia, InRange ia A → ∀ ib, InRange ib B → ∀ m' : Buf α, (∀ c, ¬ r.Owns c → m' c = m c) →
      m' (r.arr + (position A ia * B.prod + position B ib)) = some (f (ia ++ ib)) →
      step (position A ia) (position B ib) m' = m'.write (r.arr + (position A ia * B.prod + position B ib)) (new (ia ++ ib))) :
    ∃ m', (loop A.prod m fun j m => loop B.prod m fun i m => step j i m) = .ok m' ∧ r.Becomes (A ++ B) new m m' := by
  have hsz : r.asize = A.prod * B.prod := by rw [hr.asize, List.prod_append]
  have hlt : ∀ j, j < A.prod → ∀ i, i < B.prod → j * B.prod + i < r.asize := fun j hj i hi => by rw [hsz]; exact two_lt hj hi
  obtain ⟨m', h1, h2, h3⟩ := loop2_cells A.prod B.prod (fun j i => r.arr + (j * B.prod + i)) (fun j i => new (nth A j ++ nth B i)) step m
    (by intro j hj i hi j' hj' i' hi' e; exact two_inj hi hi' (by omega))
    (by intro j hj i hi; rw [pair_at hr hj hi]; rfl)
    (by
      intro j hj i hi m' hm
      obtain ⟨a1, a2⟩ := nth_range hj
      obtain ⟨b1, b2⟩ := nth_range hi
      have := hs (nth A j) a1 (nth B i) b1 m'
        (fun c hc => hm c fun j' hj' i' hi' _ => not_owns hc rfl (hlt j' hj' i' hi')) (by
          rw [a2, b2, hm _ fun j' hj' i' hi' hne e => hne (two_inj hi' hi (by omega)), pair_at hr hj hi])
      rwa [a2, b2] at this)
  refine ⟨m', h1, hr.mk' fun ix hi => ?_, fun c hc => h3 c fun j hj i hi => not_owns hc rfl (hlt j hj i hi)⟩
  obtain ⟨a1, a2⟩ := GT.inRange_split hi
  have := h2 _ (position_lt a1) _ (position_lt a2)
  rw [nth_pos a1, nth_pos a2, ← GT.position_app a1.length, List.take_append_drop] at this
  exact this

/-- Adding one slice of a larger tensor. -/
theorem C376_addSliceOf [Add α] {r x : RA} {A B : List Nat} {d offs : Nat} {f g : List Nat → α} {m : Buf α} (hr : r.Is (A ++ B) f m)
    (hx : x.Is (A ++ d :: B) g m) (ho : offs < d) (hz : B.prod ≠ 0) (ha : r.Apart x) :
    ∃ m', r.addSliceOf x A.length offs m = .ok m' ∧ r.Becomes (A ++ B) (fun ix => f ix + g (ix.insertIdx A.length offs)) m m' := by
  have hsup : r.asize / B.prod = A.prod := by rw [hr.asize, List.prod_append]; exact Nat.mul_div_cancel _ (Nat.pos_of_ne_zero hz)
  obtain ⟨m', h1, h2⟩ := pair_core hr (fun ix => f ix + g (ix.insertIdx A.length offs))
    (fun j i m => updCell (· + ·) m (r.arr + (j * B.prod + i)) (x.arr + (j * (d * B.prod) + offs * B.prod + i))) (by
    intro ia a1 ib a2 m' hm hv
    have hin : position A ia * (d * B.prod) + (offs * B.prod + position B ib) < (A ++ d :: B).prod := by
      rw [axis_prod]; exact two_lt (position_lt a1) (two_lt ho (position_lt a2))
    rw [updCell_ok hv (b := g (ia ++ offs :: ib))]
    · rw [← a1.length, RA.insert_axis]
    · rw [Nat.add_assoc (_ * (d * _)), hm _ fun ho => ha _ ho (hx.owns hin), axis_at hx (position_lt a1) ho (position_lt a2), nth_pos a1, nth_pos a2])
  refine ⟨m', ?_, h2⟩
  rw [addSliceOf, decide_eq_true (by rw [hr.dims, hx.dims]; simp; omega), Res.assrt_true, Res.ok_bind, slice_fits A B hx.dims hr.dims, Res.assrt_true, Res.ok_bind,
    hr.above (by simp), Res.ok_bind, List.drop_left,
    show Res.need (decide (B.prod ≠ 0)) = .ok () by rw [decide_eq_true hz]; rfl, Res.ok_bind]
  simp only [hsup]
  rw [hx.above (by simp), Res.ok_bind, List.drop_left, List.prod_cons, hx.stride (by simp), Res.ok_bind, drop_axis]
  exact h1

/-- A slice as a new tensor. -/
theorem C376_slice {x : RA} {A B : List Nat} {d offs : Nat} {g : List Nat → α} {m : Buf α} (hx : x.Is (A ++ d :: B) g m) (ho : offs < d) (hz : B.prod ≠ 0)
    (hne : A ++ B ≠ []) (junk : Nat → α) (q : Nat) (hf : Free m q (cells (A ++ B))) :
    ∃ y m', slice junk q x A.length offs m = .ok (y, m') ∧ y.Fresh q (A ++ B) (fun ix => g (ix.insertIdx A.length offs)) m m' ∧ x.Is (A ++ d :: B) g m' := by
  have hi0 := raw_is hne junk q m
  have hcl := (cells_pos (A ++ B)).2
  have hsup : (A ++ B).prod / B.prod = A.prod := by rw [List.prod_append]; exact Nat.mul_div_cancel _ (Nat.pos_of_ne_zero hz)
  have hout : ∀ c, x.Owns c → ¬ (⟨q, A ++ B, rmStrides (A ++ B), (A ++ B).prod, cells (A ++ B), cells (A ++ B), -1, false⟩ : RA).Owns c :=
    fun c hc ho => hx.not_free hf hc ⟨ho.1, by have := ho.2; simp only at this; omega⟩
  obtain ⟨m', h1, h2⟩ := pair_core hi0 (fun ix => g (ix.insertIdx A.length offs))
    (fun j i m => copyCell m (q + (j * B.prod + i)) (x.arr + (j * (d * B.prod) + offs * B.prod + i))) (by
    intro ia a1 ib a2 m' hm _
    have hin : position A ia * (d * B.prod) + (offs * B.prod + position B ib) < (A ++ d :: B).prod := by
      rw [axis_prod]; exact two_lt (position_lt a1) (two_lt ho (position_lt a2))
    have hcell : m' (x.arr + (position A ia * (d * B.prod) + offs * B.prod + position B ib)) = some (g (ia ++ offs :: ib)) := by
      rw [Nat.add_assoc (_ * (d * _)), hm _ (hout _ (hx.owns hin)), raw_off _ _ (hx.not_free hf (hx.owns hin)), axis_at hx (position_lt a1) ho (position_lt a2), nth_pos a1, nth_pos a2]
    rw [copyCell, read_ok hcell, Res.ok_bind, ← a1.length, RA.insert_axis])
  refine ⟨_, m', ?_, fresh_of rfl rfl h2, hx.keep fun c hc => ?_⟩
  · rw [slice, hx.dims, gvRemove, decide_eq_true (by simp), Res.assrt_true, Res.ok_bind, Res.ok_bind, List.take_left, drop_axis, raw_ok hne, Res.ok_bind]
    simp only
    rw [hi0.above (by simp), Res.ok_bind, List.drop_left, show Res.need (decide (B.prod ≠ 0)) = .ok () by rw [decide_eq_true hz]; rfl, Res.ok_bind, hsup,
      hx.above (by simp), Res.ok_bind, List.drop_left, List.prod_cons, hx.stride (by simp), Res.ok_bind, drop_axis, h1, Res.ok_bind]
  · rw [h2.2 c (hout c hc), raw_off _ _ (hx.not_free hf hc)]

/-- A view of a slice along the first axis. -/
theorem C376_viewOfSlice0 {x : RA} {B : List Nat} {d i : Nat} {g : List Nat → α} {m : Buf α} (hx : x.Is (d :: B) g m) (hi : i < d) (hB : B ≠ []) :
    ∃ y, x.viewOfSlice0 i = .ok y ∧ y.isView = true ∧ y.Is B (fun ib => g (i :: ib)) m ∧ ∀ c, y.Owns c → x.Owns c := by
  have hp : (d :: B).prod = d * B.prod := List.prod_cons
  have e1 : x.asize / d = B.prod := by rw [hx.asize, hp, Nat.mul_comm]; exact Nat.mul_div_cancel _ (by omega)
  refine ⟨⟨x.arr + B.prod * i, B, rmStrides B, B.prod, x.memsize / d, B.prod, x.nbu, true⟩, ?_, rfl, ⟨hB, rfl, (compact_rm B).symm, rfl, ?_, ?_⟩, ?_⟩
  · rw [viewOfSlice0, hx.dims, gvRemove, decide_eq_true (by simp), Res.assrt_true, Res.ok_bind, Res.ok_bind]
    rw [get_at (v := d) rfl, Res.ok_bind, show Res.need (decide (d ≠ 0)) = .ok () by rw [decide_eq_true (by omega)]; rfl, Res.ok_bind, hx.stride (by simp), Res.ok_bind, e1,
      hx.strides', rmStrides_cons]
    rfl
  · have := hx.room
    rw [hp, Nat.mul_comm] at this
    exact (Nat.le_div_iff_mul_le (by omega)).2 this
  · intro ib h
    have := hx.has (i :: ib) (.cons hi h)
    rw [← this]
    show m (x.arr + B.prod * i + position B ib) = m (x.arr + (i * B.prod + position B ib))
    rw [Nat.mul_comm, Nat.add_assoc]
  · rintro c ⟨c1, c2⟩
    simp only at c1 c2
    have := two_lt (S := B.prod) hi (show c - (x.arr + B.prod * i) < B.prod by omega)
    rw [Nat.mul_comm i] at this
    exact ⟨by omega, by rw [hx.asize, hp]; omega⟩

example : ∃ y m', slice (fun _ => (9 : Int)) 6 ⟨0, [2, 3], [3, 1], 6, 32, 32, -1, false⟩ 1 2 (Buf.ofList [1, 2, 3, 4, 5, 6]) = .ok (y, m') ∧ m' 6 = some 3 ∧ m' 7 = some 6 :=
  ⟨_, _, rfl, rfl, rfl⟩

/-! ### C377: sizes that are not checked -/

/-- A chunk placed past the end of its axis is not refused: it is written over the next rows. -/
theorem C377_chunk_past_end_fails : ∃ m', toChunk (fun _ b => b) ⟨0, [2, 2], [2, 1], 4, 32, 32, -1, false⟩ 1 1 ⟨4, [2, 2], [2, 1], 4, 32, 32, -1, false⟩
    (Buf.ofList [1, 2, 3, 4, 10, 20, 30, 40]) = .ok m' ∧ (List.range 5).map m' = [1, 10, 20, 30, 40].map (some : Int → Option Int) := ⟨_, rfl, rfl⟩

/-- Tensors with no entries: chunks and slices divide by zero. -/
theorem C377_empty_fails : toChunk (fun _ b => b) ⟨0, [2, 0], [0, 1], 0, 32, 32, -1, false⟩ 1 0 ⟨4, [2, 0], [0, 1], 0, 32, 32, -1, false⟩ (Buf.ofList [1, 2]) = (.ub : Res (Buf Int)) ∧
    slice (fun _ => (9 : Int)) 6 ⟨0, [2, 0], [0, 1], 0, 32, 32, -1, false⟩ 0 0 (Buf.ofList [1, 2]) = .ub := ⟨rfl, rfl⟩

/-- A slice of a vector has no axes, for which no tensor can be made. -/
theorem C377_slice_of_vector_fails (junk : Nat → α) (q : Nat) {x : RA} {d : Nat} {f : List Nat → α} {m : Buf α} (h : x.Is [d] f m) (i : Nat) : slice junk q x 0 i m = .ub := by
  rw [slice, h.dims]; rfl

end Cnine
