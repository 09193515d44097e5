import Verif.Model.Slices
import Verif.Lemmas.Adds
import Verif.Props.Conv
import Verif.Props.GatherRows
import Verif.Props.ViewFuse

/-!
# Lemmas on slice gathering
-/

namespace Cnine

open Conv

variable {α : Type}

namespace Slices

/-- Index `i` put in at place `a`. -/
def put (a i : Nat) (ix : List Nat) : List Nat := ix.take a ++ i :: ix.drop a

/-- Place `a` taken out. -/
def cut (a : Nat) (l : List Nat) : List Nat := l.take a ++ l.drop (a + 1)

theorem cut_put {a i : Nat} {ix : List Nat} (h : a ≤ ix.length) : cut a (put a i ix) = ix := by
  unfold cut put
  have e : (ix.take a).length = a := by simp [h]
  rw [List.take_append, List.drop_append, e, List.drop_eq_nil_of_le (by omega : (ix.take a).length ≤ a + 1)]
  simp [List.take_take]

theorem put_getD {a i : Nat} {ix : List Nat} (h : a ≤ ix.length) : (put a i ix).getD a 0 = i := by
  unfold put
  have e : (ix.take a).length = a := by simp [h]
  rw [List.getD_eq_getElem?_getD, List.getElem?_append_right (by omega), e]
  simp

theorem put_cut {a : Nat} {ix : List Nat} (h : a < ix.length) : put a (ix.getD a 0) (cut a ix) = ix := by
  unfold cut put
  have e : (ix.take a).length = a := by simp; omega
  rw [List.take_append, List.drop_append, e]
  simp only [Nat.sub_self, List.take_zero, List.append_nil, List.drop_zero, List.take_take, Nat.min_self]
  rw [List.drop_eq_nil_of_le (by omega), List.nil_append]
  conv => rhs; rw [← List.take_append_drop a ix, List.drop_eq_getElem_cons h]
  simp [h]

theorem cut_length {a : Nat} {l : List Nat} (h : a < l.length) : (cut a l).length = l.length - 1 := by
  simp [cut]; omega

theorem inRange_put {a i : Nat} {ix dims : List Nat} (ha : a < dims.length) :
    InRange ix (cut a dims) → i < dims.getD a 0 → InRange (put a i ix) dims := by
  intro h hi
  have hl := h.length_eq
  rw [cut_length ha] at hl
  have hd := put_cut ha
  rw [← hd]
  unfold cut at h
  unfold put cut
  have e : (dims.take a).length = a := by simp; omega
  rw [← List.take_append_drop a ix] at h
  have h' := (inRange_append (by simp; omega)).1 h
  rw [List.take_append, List.drop_append, e]
  simp only [Nat.sub_self, List.take_zero, List.append_nil, List.drop_zero, List.take_take, Nat.min_self]
  rw [List.drop_eq_nil_of_le (by omega : (dims.take a).length ≤ a), List.nil_append]
  exact (inRange_append (by simp; omega)).2 ⟨h'.1, inRange_cons.2 ⟨hi, h'.2⟩⟩

theorem inRange_cut {a : Nat} {ix dims : List Nat} (ha : a < dims.length) (h : InRange ix dims) :
    InRange (cut a ix) (cut a dims) ∧ ix.getD a 0 < dims.getD a 0 := by
  have hl := h.length_eq
  rw [← List.take_append_drop a ix, ← List.take_append_drop a dims] at h
  have h' := (inRange_append (by simp; omega)).1 h
  rw [List.drop_eq_getElem_cons ha, List.drop_eq_getElem_cons (by omega : a < ix.length)] at h'
  have h2 := inRange_cons.1 h'.2
  refine ⟨?_, ?_⟩
  · unfold cut
    exact (inRange_append (by simp; omega)).2 ⟨h'.1, h2.2⟩
  · simpa [ha, show a < ix.length by omega] using h2.1

theorem dot_put {a i : Nat} {ix st : List Nat} (ha : a < st.length) (hl : ix.length = st.length - 1) :
    dot st (put a i ix) = st.getD a 0 * i + dot (cut a st) ix := by
  conv => lhs; rw [← List.take_append_drop a st]
  unfold put cut
  rw [List.drop_eq_getElem_cons ha, dot_append _ _ _ _ (by simp; omega), dot_cons]
  conv => rhs; rw [← List.take_append_drop a ix]
  rw [dot_append _ _ _ _ (by simp; omega)]
  simp [ha]
  omega

theorem sv_cell (v : View) (ix : List Nat) : v.sv.cell ix = (v.cell ix : Int) := by
  simp only [View.sv, SV.cell, View.cell]
  rw [sdot_ofNat]
  push_cast
  rfl

/-- The view without axis `a`. -/
def drop (v : View) (a : Nat) : View := ⟨v.off, cut a v.dims, cut a v.strides⟩

theorem cell_put (v : View) (hv : v.WF) {a i : Nat} {ix : List Nat} (ha : a < v.dims.length)
    (hl : ix.length = v.dims.length - 1) :
    v.cell (put a i ix) = (drop v a).cell ix + i * v.strides.getD a 0 := by
  have hv' : v.strides.length = v.dims.length := hv
  unfold View.cell drop
  dsimp only
  rw [dot_put (by omega) (by omega), Nat.mul_comm i]
  omega

theorem drop_wf {v : View} (hv : v.WF) {a : Nat} (ha : a < v.dims.length) : (drop v a).WF := by
  have hv' : v.strides.length = v.dims.length := hv
  unfold View.WF drop
  dsimp only
  rw [cut_length ha, cut_length (by omega), hv']

theorem gvRemove_cut {l : List Nat} {a : Nat} (h : a < l.length) : gvRemove l a = .ok (cut a l) := by
  simp [gvRemove, h, cut]

theorem get_getD {l : List Nat} {a : Nat} (h : a < l.length) : Res.get l a = .ok (l.getD a 0) := by
  simp [Res.get, h]

theorem getAll_ok {l : List Nat} : ∀ {ks : List Nat}, (∀ k ∈ ks, k < l.length) → getAll l ks = .ok (ks.map fun k => l.getD k 0)
  | [], _ => rfl
  | k :: ks, h => by
    rw [getAll, get_getD (h k (by simp)), Res.ok_bind, getAll_ok fun j hj => h j (by simp [hj])]
    rfl

theorem front_eq {l : List Nat} {a : Nat} (h : a < l.length) :
    ((List.range l.length).map (frontAxis a)).map (fun k => l.getD k 0) = l.getD a 0 :: cut a l := by
  apply List.ext_getElem
  · simp [cut_length h]; omega
  · intro k h1 h2
    simp only [List.length_map, List.length_range] at h1
    simp only [List.getElem_map, List.getElem_range]
    cases k with
    | zero => simp [frontAxis]
    | succ k =>
      rw [List.getElem_cons_succ]
      unfold frontAxis cut
      rw [if_neg (by omega)]
      by_cases c : k + 1 ≤ a
      · rw [if_pos c, List.getElem_append_left (by simp; omega)]
        simp [show k < l.length by omega]
      · rw [if_neg c, List.getElem_append_right (by simp; omega)]
        simp only [List.getElem_drop, List.length_take, Nat.min_eq_left (Nat.le_of_lt h)]
        rw [List.getD_eq_getElem?_getD, List.getElem?_eq_getElem h1]
        simp only [Option.getD_some]
        congr 1
        omega

theorem toFront_ok (v : View) (hv : v.WF) {a : Nat} (ha : a < v.dims.length) :
    toFront v a = .ok ⟨v.off, v.dims.getD a 0 :: cut a v.dims, v.strides.getD a 0 :: cut a v.strides⟩ := by
  have hv' : v.strides.length = v.dims.length := hv
  have hk : ∀ k ∈ (List.range v.dims.length).map (frontAxis a), k < v.dims.length := by
    intro k hk
    obtain ⟨j, hj, rfl⟩ := List.mem_map.1 hk
    have := List.mem_range.1 hj
    unfold frontAxis
    split
    · exact ha
    · split <;> omega
  have e2 := front_eq (l := v.strides) (a := a) (by omega)
  rw [hv'] at e2
  unfold toFront
  rw [show (decide (a < v.dims.length)) = true from decide_eq_true ha, Res.need_true, Res.ok_bind, getAll_ok hk, Res.ok_bind,
    getAll_ok (by rw [hv']; exact hk), Res.ok_bind, front_eq ha, e2]

theorem forM_flatMap {ι κ σ : Type} (l : List ι) (f : ι → List κ) (s : σ) (body : σ → κ → Res σ) :
    Res.forM (l.flatMap f) s body = Res.forM l s fun s i => Res.forM (f i) s body := by
  induction l generalizing s with
  | nil => rfl
  | cons i l ih =>
    rw [List.flatMap_cons, Res.forM_append, Res.forM_cons]
    congr 1
    funext s
    exact ih s

theorem forM_map {ι κ σ : Type} (l : List ι) (f : ι → κ) (s : σ) (body : σ → κ → Res σ) :
    Res.forM (l.map f) s body = Res.forM l s fun s i => body s (f i) := by
  induction l generalizing s with
  | nil => rfl
  | cons i l ih =>
    rw [List.map_cons, Res.forM_cons, Res.forM_cons]
    congr 1
    funext s
    exact ih s

/-- The loops visit all indices in order. -/
theorem nest_eq [Add α] : ∀ (ds : List Nat) (rs xs : List Int), rs.length = ds.length → xs.length = ds.length →
    ∀ (ra xa : Int) (m : Buf α), nest ds rs xs ra xa m =
      Res.forM (allIndices ds) m fun m ix => bump (ra + sdot rs ix) (xa + sdot xs ix) m
  | [], [], [], _, _, ra, xa, m => by
    simp [nest, allIndices, Res.forM_cons, Res.forM_nil, sdot]
    cases bump ra xa m <;> rfl
  | d :: ds, r :: rs, x :: xs, h1, h2, ra, xa, m => by
    rw [nest, allIndices, forM_flatMap]
    unfold loop
    congr 1
    funext m i
    dsimp only
    rw [nest_eq ds rs xs (by simpa using h1) (by simpa using h2), forM_map]
    congr 1
    funext m ix
    rw [sdot, sdot]
    congr 1
    · rw [Int.mul_comm r]; omega
    · rw [Int.mul_comm x]; omega

theorem bump_acc [AddCommMonoid α] {P : Nat → Prop} {m0 : Buf α} {dst src : Int} {v : α} (hv : m0.cellAt src = some v)
    (hP : P src.toNat) (hs : (m0.cellAt dst).isSome) (hn : ∀ c : Nat, dst = c → ¬ P c) :
    Acc P m0 (fun m => bump dst src m) (spot dst v) := by
  refine Acc.congr (Acc.inc hs hn) (fun m hm => ?_) fun _ => rfl
  unfold bump
  rw [hm.rd hv hP, Res.ok_bind]

/-- The situation: one pair of axes (`a` of `R`, `b` of `X`), the other axes agree, and the numbers of the slices are in
range. -/
structure Fits (R X : View) (a b : Nat) (es : List (Int × Int)) (m : Buf α) (f : List Nat → α) : Prop where
  rwf : R.WF
  xwf : X.WF
  ra : a < R.dims.length
  xb : b < X.dims.length
  same : cut a R.dims = cut b X.dims
  edge : ∀ e ∈ es, (0 ≤ e.1 ∧ e.1 < R.dims.getD a 0) ∧ 0 ≤ e.2 ∧ e.2 < X.dims.getD b 0
  has : R.sv.Has m
  inj : R.sv.Inj
  apart : R.sv.Apart X.sv
  val : X.sv.Holds m f

/-- The sum of the source slices of the slice that `ix` lies in. -/
def gathered [AddCommMonoid α] (es : List (Int × Int)) (f : List Nat → α) (a b : Nat) (ix : List Nat) : α :=
  ((es.filter fun e => e.1 = ((ix.getD a 0 : Nat) : Int)).map fun e => f (put b e.2.toNat (cut a ix))).sum

/-- The cells of `X`. -/
def cellsOf (X : View) (c : Nat) : Prop := ∃ jx, InRange jx X.dims ∧ X.sv.cell jx = c

theorem gains_of [AddCommMonoid α] {R X : View} {a b : Nat} {es : List (Int × Int)} {m : Buf α} {f : List Nat → α}
    (h : Fits R X a b es m f) {prog : Buf α → Res (Buf α)}
    (hp : Acc (cellsOf X) m prog fun c => (es.map fun e => ((allIndices (cut a R.dims)).map fun ix =>
      spot (R.sv.cell (put a e.1.toNat ix)) (f (put b e.2.toNat ix)) c).sum).sum) :
    ∃ m', prog m = .ok m' ∧ R.sv.Gains (gathered es f a b) m m' := by
  refine Acc.gains (P := cellsOf X) (Acc.congr hp (fun _ _ => rfl) fun c => ?_) h.inj
  unfold spread
  by_cases hc : ∃ jx, InRange jx R.dims ∧ R.sv.cell jx = c
  · obtain ⟨jx, hj, rfl'⟩ := hc
    rw [← spread, spread_at R.sv h.inj _ jx hj c rfl']
    unfold gathered
    rw [← GatherRows.sum_filter]
    refine congrArg List.sum (List.map_congr_left fun e he => ?_)
    obtain ⟨k1, k2⟩ := h.edge e he
    obtain ⟨c1, c2⟩ := inRange_cut h.ra hj
    have hjl := hj.length_eq
    have hra := h.ra
    by_cases t : e.1 = ((jx.getD a 0 : Nat) : Int)
    · rw [if_pos t, sum_single (allIndices (cut a R.dims)) (allIndices_nodup _) _ (cut a jx) (mem_allIndices.2 c1)]
      · unfold spot
        rw [show e.1.toNat = jx.getD a 0 by omega, put_cut (by omega), if_pos rfl']
      · intro ix hix hne
        unfold spot
        rw [if_neg]
        intro e'
        have hr := inRange_put h.ra (mem_allIndices.1 hix) (show e.1.toNat < R.dims.getD a 0 by omega)
        have := h.inj _ _ hr hj (e'.trans rfl'.symm)
        apply hne
        rw [← this, cut_put]
        have := (mem_allIndices.1 hix).length_eq
        rw [cut_length h.ra] at this
        have := h.ra
        omega
    · rw [if_neg t]
      rw [List.map_congr_left (g := fun _ => (0 : α)), sum_map_zero']
      intro ix hix
      unfold spot
      rw [if_neg]
      intro e'
      have hr := inRange_put h.ra (mem_allIndices.1 hix) (show e.1.toNat < R.dims.getD a 0 by omega)
      have := h.inj _ _ hr hj (e'.trans rfl'.symm)
      apply t
      have hl := (mem_allIndices.1 hix).length_eq
      rw [cut_length h.ra] at hl
      have hlt := h.ra
      rw [← this, put_getD (by omega)]
      omega
  · rw [← spread, spread_off R.sv _ c fun ix hix e => hc ⟨ix, hix, e⟩]
    rw [List.map_congr_left (g := fun _ => (0 : α)), sum_map_zero']
    intro e he
    rw [List.map_congr_left (g := fun _ => (0 : α)), sum_map_zero']
    intro ix hix
    unfold spot
    rw [if_neg]
    intro e'
    obtain ⟨k1, k2⟩ := h.edge e he
    exact hc ⟨_, inRange_put h.ra (mem_allIndices.1 hix) (show e.1.toNat < R.dims.getD a 0 by omega), e'⟩

theorem spot_congr [Zero α] {c c' : Int} {t t' : α} (h1 : c = c') (h2 : t = t') : spot c t = spot c' t' := by rw [h1, h2]

/-- The loops over two views that visit the pairs of cells of the slices. -/
theorem nest_acc [AddCommMonoid α] {R X : View} {a b : Nat} {es : List (Int × Int)} {m : Buf α} {f : List Nat → α}
    (h : Fits R X a b es m f) {v y : View} (hv : v.WF) (hy : y.WF) (hd : v.dims = y.dims)
    (hp : (pairCells v y).Perm (pairCells (drop R a) (drop X b))) {e : Int × Int} (he : e ∈ es) {rs0 xs0 : Int}
    (hr0 : rs0 = ((R.strides.getD a 0 : Nat) : Int)) (hx0 : xs0 = ((X.strides.getD b 0 : Nat) : Int)) {ra xa : Int}
    (hra : ra = v.off + e.1 * rs0) (hxa : xa = y.off + e.2 * xs0) :
    Acc (cellsOf X) m (nest v.dims (v.strides.map Int.ofNat) (y.strides.map Int.ofNat) ra xa)
      fun c => ((allIndices (cut a R.dims)).map fun ix =>
        spot (R.sv.cell (put a e.1.toNat ix)) (f (put b e.2.toNat ix)) c).sum := by
  subst hr0 hx0 hra hxa
  obtain ⟨⟨k1, k2⟩, k3, k4⟩ := h.edge e he
  have hv' : v.strides.length = v.dims.length := hv
  have hy' : y.strides.length = y.dims.length := hy
  let val : Int → α := fun c => (m.cellAt c).getD 0
  let t0 : Int := e.1 * ((R.strides.getD a 0 : Nat) : Int)
  let s0 : Int := e.2 * ((X.strides.getD b 0 : Nat) : Int)
  have hcellR : ∀ ix, InRange ix (cut a R.dims) → ((drop R a).cell ix : Int) + t0 = R.sv.cell (put a e.1.toNat ix) := by
    intro ix hix
    have hl := hix.length_eq
    rw [cut_length h.ra] at hl
    rw [sv_cell, cell_put R h.rwf h.ra hl]
    push_cast
    rw [Int.toNat_of_nonneg k1]
  have hcellX : ∀ ix, InRange ix (cut a R.dims) → ((drop X b).cell ix : Int) + s0 = X.sv.cell (put b e.2.toNat ix) := by
    intro ix hix
    rw [h.same] at hix
    have hl := hix.length_eq
    rw [cut_length h.xb] at hl
    rw [sv_cell, cell_put X h.xwf h.xb hl]
    push_cast
    rw [Int.toNat_of_nonneg k3]
  have hpairs : Acc (cellsOf X) m (fun m => Res.forM (pairCells v y) m fun m (p : Nat × Nat) => bump (p.1 + t0) (p.2 + s0) m)
      (fun c => ((pairCells v y).map fun p => spot ((p.1 : Int) + t0) (val (p.2 + s0)) c).sum) := by
    refine Acc.forM _ _ (fun (p : Nat × Nat) => spot ((p.1 : Int) + t0) (val (p.2 + s0))) fun p hpm => ?_
    obtain ⟨ix, hix, rfl⟩ := List.mem_map.1 (hp.mem_iff.1 hpm)
    have hix := mem_allIndices.1 hix
    have hix' : InRange ix (cut a R.dims) := hix
    have hX := inRange_put h.xb (h.same ▸ hix') (show e.2.toNat < X.dims.getD b 0 by omega)
    have hR := inRange_put h.ra hix' (show e.1.toNat < R.dims.getD a 0 by omega)
    have hval := h.val _ hX
    have hhas := h.has _ hR
    unfold SV.val at hval hhas
    dsimp only [val]
    rw [hcellR ix hix', hcellX ix hix', hval]
    refine bump_acc hval ⟨_, hX, ?_⟩ hhas ?_
    · rw [sv_cell]; omega
    · rintro c hc ⟨jx, hj, e'⟩
      exact h.apart _ _ hR hj (hc.trans e'.symm)
  refine Acc.congr hpairs (fun m' _ => ?_) fun c => ?_
  · rw [nest_eq _ _ _ (by simp [hv']) (by simp [hy', hd])]
    unfold pairCells
    rw [forM_map]
    congr 1
    funext m ix
    congr 1
    · rw [← sv_cell]; simp only [View.sv, SV.cell]; omega
    · rw [← sv_cell]; simp only [View.sv, SV.cell]; omega
  · rw [(hp.map _).sum_eq]
    unfold pairCells
    rw [List.map_map]
    refine congrArg List.sum (List.map_congr_left fun ix hix => ?_)
    have hix' : InRange ix (cut a R.dims) := mem_allIndices.1 hix
    have hX := inRange_put h.xb (h.same ▸ hix') (show e.2.toNat < X.dims.getD b 0 by omega)
    have hval := h.val _ hX
    unfold SV.val at hval
    simp only [Function.comp_apply]
    dsimp only [val]
    rw [hcellR ix hix', hcellX ix hix', hval]
    rfl

end Slices

end Cnine
