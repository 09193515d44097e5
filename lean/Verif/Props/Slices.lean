import Verif.Lemmas.Slices
import Verif.Props.RConvSparse
import Verif.Lemmas.Elem2

/-!
# C187–C191: gathering slices
-/

namespace Cnine

open Conv

variable {α : Type}

namespace Slices

/-! ## C187, C188: `co_scrunch_except` -/

theorem except_ok (x y : View) (hx : x.WF) (hy : y.WF) {a b : Nat} (ha : a + 1 < x.dims.length) (hb : b + 1 < y.dims.length)
    (hd : cut a x.dims = cut b y.dims) (hs : ∀ s ∈ x.strides, s < intMax) :
    ∃ v w, coScrunchExcept x y a b = .ok (⟨x.off, x.dims.getD a 0 :: v.dims, x.strides.getD a 0 :: v.strides⟩,
        ⟨y.off, y.dims.getD b 0 :: w.dims, y.strides.getD b 0 :: w.strides⟩) ∧
      v.WF ∧ w.WF ∧ v.dims = w.dims ∧ v.dims ≠ [] ∧ v.off = x.off ∧ w.off = y.off ∧
      v.dims.length < x.dims.length ∧ (pairCells v w).Perm (pairCells (drop x a) (drop y b)) := by
  have hx' : x.strides.length = x.dims.length := hx
  have hy' : y.strides.length = y.dims.length := hy
  have hla := cut_length (l := x.dims) (a := a) (by omega)
  have hlb := cut_length (l := y.dims) (a := b) (by omega)
  have hs' : ∀ s ∈ (drop x a).strides, s < intMax := by
    intro s h
    apply hs
    simp only [drop, cut, List.mem_append] at h
    exact h.elim List.mem_of_mem_take List.mem_of_mem_drop
  obtain ⟨v, w, e, hv, hw, hvw, hp⟩ := C15_co_scrunch (drop x a) (drop y b) (drop_wf hx (by omega)) (drop_wf hy (by omega)) hd hs'
  have hne : v.dims ≠ [] := coScrunch_ne (drop x a) (drop y b) _ _ (drop_wf hx (by omega)) hd hs' (by
    intro h
    have := congrArg List.length h
    simp only [drop, hla, List.length_nil] at this
    omega) e
  have hoff : v.off = x.off ∧ w.off = y.off ∧ v.dims.length ≤ (cut a x.dims).length := by
    unfold View.coScrunch at e
    simp only [show (drop x a).dims = (drop y b).dims from hd, decide_true, Res.assrt_true, Res.ok_bind, Res.ok.injEq,
      Prod.mk.injEq] at e
    obtain ⟨rfl, rfl⟩ := e
    refine ⟨rfl, rfl, ?_⟩
    simp only [List.map_reverse, List.length_reverse, List.length_map]
    have key : ∀ (l : List (Nat × Nat × Nat)) c, (View.coScrunchLoop c l).length ≤ l.length + 1 := by
      intro l
      induction l with
      | nil => intro c; obtain ⟨_, _, _⟩ := c; simp [View.coScrunchLoop]
      | cons b l ih =>
        intro c
        obtain ⟨s, t, d⟩ := c; obtain ⟨s', t', d'⟩ := b
        rw [View.coScrunchLoop]
        split
        · have := ih (s, t, d * d'); simp; omega
        · have := ih (s', t', d'); simp; omega
    have key' : ∀ l : List (Nat × Nat × Nat), (View.coScrunchAxes l).length ≤ l.length := by
      intro l
      cases l with
      | nil => simp [View.coScrunchAxes]
      | cons c l => simpa [View.coScrunchAxes] using key l c
    refine (key' _).trans ?_
    have h1 := (ordering_spec (drop x a).strides hs').1.length_eq
    have h2 : (drop x a).strides.length = (drop x a).dims.length := drop_wf hx (by omega)
    rw [List.length_map, h1, List.length_range, h2]
    rfl
  refine ⟨v, w, ?_, hv, hw, hvw, hne, hoff.1, hoff.2.1, by omega, hp⟩
  unfold coScrunchExcept
  have hlen : (y.dims.length : Int) - 1 = (x.dims.length : Int) - 1 := by
    have := congrArg List.length hd
    omega
  dsimp only
  rw [decide_eq_true hlen, Res.assrt_true, Res.ok_bind, decide_eq_true (show (a : Int) < (x.dims.length : Int) - 1 by omega),
    Res.assrt_true, Res.ok_bind, decide_eq_true (show (b : Int) < (x.dims.length : Int) - 1 by omega), Res.assrt_true,
    Res.ok_bind, gvRemove_cut (by omega), Res.ok_bind, gvRemove_cut (by omega), Res.ok_bind,
    decide_eq_true hd.symm, Res.assrt_true, Res.ok_bind, gvRemove_cut (by omega), Res.ok_bind, gvRemove_cut (by omega),
    Res.ok_bind]
  have e' : View.coScrunch ⟨x.off, cut a x.dims, cut a x.strides⟩ ⟨y.off, cut b y.dims, cut b y.strides⟩ = .ok (v, w) := e
  rw [e', Res.ok_bind]
  dsimp only
  rw [get_getD (by omega), Res.ok_bind, get_getD (by omega), Res.ok_bind, get_getD (by omega), Res.ok_bind,
    get_getD (by omega), Res.ok_bind]

/-- C187: the two views returned have the special axis in front and the same sizes behind it, and walking through slice `t` of
one and slice `s` of the other together meets the same pairs of cells, each as often, as before. -/
theorem C187_pairs (x y : View) (hx : x.WF) (hy : y.WF) {a b : Nat} (ha : a + 1 < x.dims.length) (hb : b + 1 < y.dims.length)
    (hd : cut a x.dims = cut b y.dims) (hs : ∀ s ∈ x.strides, s < intMax) :
    ∃ x' y' D, coScrunchExcept x y a b = .ok (x', y') ∧ x'.WF ∧ y'.WF ∧
      x'.dims = x.dims.getD a 0 :: D ∧ y'.dims = y.dims.getD b 0 :: D ∧ D ≠ [] ∧ D.length < x.dims.length ∧
      ∀ t s, ((allIndices D).map fun ix => (x'.cell (t :: ix), y'.cell (s :: ix))).Perm
        ((allIndices (cut a x.dims)).map fun ix => (x.cell (put a t ix), y.cell (put b s ix))) := by
  obtain ⟨v, w, e, hv, hw, hvw, hne, o1, o2, hl, hp⟩ := except_ok x y hx hy ha hb hd hs
  refine ⟨_, _, v.dims, e, by simp [View.WF]; exact hv, by simp [View.WF]; exact hw, rfl, by simp [hvw], hne, hl, fun t s => ?_⟩
  have e1 : ((allIndices v.dims).map fun ix => ((⟨x.off, x.dims.getD a 0 :: v.dims, x.strides.getD a 0 :: v.strides⟩ : View).cell (t :: ix),
      (⟨y.off, y.dims.getD b 0 :: w.dims, y.strides.getD b 0 :: w.strides⟩ : View).cell (s :: ix))) =
      (pairCells v w).map fun p => (p.1 + t * x.strides.getD a 0, p.2 + s * y.strides.getD b 0) := by
    unfold pairCells
    rw [List.map_map]
    refine List.map_congr_left fun ix _ => ?_
    simp only [View.cell, dot_cons, Function.comp_apply, o1, o2]
    rw [Nat.mul_comm t, Nat.mul_comm s]
    congr 1 <;> omega
  have e2 : ((allIndices (cut a x.dims)).map fun ix => (x.cell (put a t ix), y.cell (put b s ix))) =
      (pairCells (drop x a) (drop y b)).map fun p => (p.1 + t * x.strides.getD a 0, p.2 + s * y.strides.getD b 0) := by
    unfold pairCells
    rw [List.map_map]
    refine List.map_congr_left fun ix hix => ?_
    have hix := mem_allIndices.1 hix
    have l1 := hix.length_eq
    rw [cut_length (by omega)] at l1
    have l2 := hix.length_eq
    rw [hd, cut_length (by omega)] at l2
    simp only [Function.comp_apply]
    rw [cell_put x hx (by omega) l1, cell_put y hy (by omega) l2]
  rw [e1, e2]
  exact hp.map _

/-- C187: other sizes are refused. -/
theorem C187_refuses (x y : View) (a b : Nat) (h : cut a x.dims ≠ cut b y.dims) : coScrunchExcept x y a b = .throw := by
  unfold coScrunchExcept
  dsimp only
  by_cases h1 : (y.dims.length : Int) - 1 = (x.dims.length : Int) - 1
  · by_cases h2 : (a : Int) < (x.dims.length : Int) - 1
    · by_cases h3 : (b : Int) < (x.dims.length : Int) - 1
      · rw [decide_eq_true h1, Res.assrt_true, Res.ok_bind, decide_eq_true h2, Res.assrt_true, Res.ok_bind, decide_eq_true h3,
          Res.assrt_true, Res.ok_bind, gvRemove_cut (by omega), Res.ok_bind, gvRemove_cut (by omega), Res.ok_bind,
          decide_eq_false (fun e => h e.symm)]
        rfl
      · rw [decide_eq_true h1, Res.assrt_true, Res.ok_bind, decide_eq_true h2, Res.assrt_true, Res.ok_bind, decide_eq_false h3]
        rfl
    · rw [decide_eq_true h1, Res.assrt_true, Res.ok_bind, decide_eq_false h2]
      rfl
  · rw [decide_eq_false h1]
    rfl

example : coScrunchExcept ⟨0, [2, 3, 4], [12, 4, 1]⟩ ⟨100, [3, 2, 4], [8, 4, 1]⟩ 0 1 =
    .ok (⟨0, [2, 3, 4], [12, 4, 1]⟩, ⟨100, [2, 3, 4], [4, 8, 1]⟩) := by decide
example : coScrunchExcept ⟨0, [2, 3, 4], [12, 4, 1]⟩ ⟨100, [5, 3, 4], [12, 4, 1]⟩ 0 0 =
    .ok (⟨0, [2, 12], [12, 1]⟩, ⟨100, [5, 12], [12, 1]⟩) := by decide
example : cut 0 [2, 3, 4] = cut 1 [3, 2, 4] := by decide
example : cut 0 [2, 3, 4] ≠ cut 0 [2, 3, 5] ∧
    coScrunchExcept ⟨0, [2, 3, 4], [12, 4, 1]⟩ ⟨100, [2, 3, 5], [15, 5, 1]⟩ 0 0 = .throw := by decide

/-- C188: the last axis of either view is refused, although nothing else is wrong. -/
theorem C188_last_fails (x y : View) (a b : Nat) (h : a + 1 = x.dims.length ∨ b + 1 = y.dims.length) :
    coScrunchExcept x y a b = .throw := by
  unfold coScrunchExcept
  dsimp only
  by_cases h1 : (y.dims.length : Int) - 1 = (x.dims.length : Int) - 1
  · by_cases h2 : (a : Int) < (x.dims.length : Int) - 1
    · rw [decide_eq_true h1, Res.assrt_true, Res.ok_bind, decide_eq_true h2, Res.assrt_true, Res.ok_bind,
        decide_eq_false (by omega : ¬ (b : Int) < (x.dims.length : Int) - 1)]
      rfl
    · rw [decide_eq_true h1, Res.assrt_true, Res.ok_bind, decide_eq_false h2]
      rfl
  · rw [decide_eq_false h1]
    rfl

/-- C188: so the gathering of slices along the last axis is refused by the fast version. -/
theorem C188_gather_fails [Add α] (R X : View) (g : GMap) (a b : Nat) (m : Buf α)
    (h : a + 1 = R.dims.length ∨ b + 1 = X.dims.length) : gather R X g b a m = .throw := by
  unfold gather
  rw [C188_last_fails R X a b h]
  rfl

example : coScrunchExcept ⟨0, [2, 3], [3, 1]⟩ ⟨100, [2, 3], [3, 1]⟩ 1 1 = .throw ∧
    cut 1 [2, 3] = cut 1 [2, 3] := by decide

/-! ## C189: the plain version -/

/-- C189: with at most four axes, every slice of `R` gains the sum of its source slices of `X`, counted with multiplicity, and
nothing else changes. -/
theorem C189_naive [AddCommMonoid α] {R X : View} {a b : Nat} {g : GMap} {es : List (Int × Int)} {m : Buf α} {f : List Nat → α}
    (hg : g.forEach = .ok es) (h : Fits R X a b es m f) (h4 : R.dims.length < 5) :
    ∃ m', naive R X g b a m = .ok m' ∧ R.sv.Gains (gathered es f a b) m m' := by
  refine gains_of (prog := naive R X g b a) h ?_
  have hl : X.dims.length = R.dims.length := by
    have h1 := congrArg List.length h.same
    rw [cut_length h.ra, cut_length h.xb] at h1
    have := h.ra
    have := h.xb
    omega
  refine Acc.congr (Acc.forM es _ _ fun e he => nest_acc h (v := drop R a) (y := drop X b) (drop_wf h.rwf h.ra) (drop_wf h.xwf h.xb)
    h.same (List.Perm.refl _) he rfl rfl rfl rfl) (fun m' _ => ?_) fun _ => rfl
  unfold naive
  rw [decide_eq_true hl, Res.assrt_true, Res.ok_bind, decide_eq_true h4, Res.assrt_true, Res.ok_bind,
    toFront_ok X h.xwf h.xb, Res.ok_bind, toFront_ok R h.rwf h.ra, Res.ok_bind, hg, Res.ok_bind]
  dsimp only
  rw [← h.same]
  rfl

/-- C189: more axes are refused. -/
theorem C189_rank_throw [Add α] (R X : View) (g : GMap) (a b : Nat) (m : Buf α) (h : 5 ≤ R.dims.length) :
    naive R X g b a m = .throw := by
  unfold naive
  by_cases h1 : X.dims.length = R.dims.length
  · rw [decide_eq_true h1, Res.assrt_true, Res.ok_bind, decide_eq_false (by omega)]
    rfl
  · rw [decide_eq_false h1]
    rfl

/-- Results in the first `n` cells. -/
def after (n : Nat) (p : Res (Buf Int)) : Option (List (Option Int)) :=
  match p with
  | .ok m => some ((List.range n).map m)
  | _ => none

/-- A 2×2 matrix at 0 and a 2×3 matrix at 4. -/
def exR : View := ⟨0, [2, 2], [2, 1]⟩
def exX : View := ⟨4, [2, 3], [3, 1]⟩
def exM : Buf Int := memOf [0, 0, 100, 200, 1, 2, 3, 10, 20, 30]

/-- Column 1 gains columns 0 and 2, column 0 gains column 1. -/
def exG : Res GMap := GMap.ofMap [(1, [0, 2]), (0, [1])] 1 1 1 1

example : exG >>= GMap.forEach = .ok [(1, 0), (1, 2), (0, 1)] := by decide

theorem fits_of {R X : View} {a b : Nat} {es : List (Int × Int)} {m : Buf Int} (h1 : R.WF) (h2 : X.WF) (h3 : a < R.dims.length)
    (h4 : b < X.dims.length) (h5 : cut a R.dims = cut b X.dims)
    (h6 : ∀ e ∈ es, (0 ≤ e.1 ∧ e.1 < R.dims.getD a 0) ∧ 0 ≤ e.2 ∧ e.2 < X.dims.getD b 0)
    (h7 : ∀ ix ∈ allIndices R.dims, (R.sv.val m ix).isSome)
    (h8 : ((allIndices R.dims).map R.sv.cell).Nodup)
    (h9 : ∀ ix ∈ allIndices R.dims, ∀ jx ∈ allIndices X.dims, R.sv.cell ix ≠ X.sv.cell jx)
    (h10 : ∀ jx ∈ allIndices X.dims, X.sv.val m jx = some (entries X.sv m jx)) : Fits R X a b es m (entries X.sv m) := by
  refine ⟨h1, h2, h3, h4, h5, h6, fun ix hix => h7 ix (mem_allIndices.2 hix), fun ix jx hix hjx e => ?_,
    fun ix jx hix hjx => h9 ix (mem_allIndices.2 hix) jx (mem_allIndices.2 hjx), holds_of h10⟩
  exact List.inj_on_of_nodup_map h8 (mem_allIndices.2 hix) (mem_allIndices.2 hjx) e

example : Fits exR exX 1 1 [(1, 0), (1, 2), (0, 1)] exM (entries exX.sv exM) :=
  fits_of (by decide) (by decide) (by decide) (by decide) (by decide) (by decide) (by decide) (by decide) (by decide) (by decide)

example : after 4 (exG >>= fun g => naive exR exX g 1 1 exM) = some [some 2, some 4, some 120, some 240] := by decide

/-- C188 fails for views whose other sizes differ: they are not compared, and cells outside of `R` are written. -/
theorem C188_sizes_fails : after 4 (exG >>= fun g => naive ⟨0, [2, 1], [1, 1]⟩ ⟨4, [3, 2], [2, 1]⟩ g 0 0
    (memOf [0, 0, 0, 0, 1, 2, 10, 20, 5, 6])) = some [some 10, some 26, some 8, some 0] := by decide

/-! ## C190: the fast version -/

/-- C190: where at most two other axes are left after merging and the last ones run through adjacent cells, the fast version
computes the same sums. -/
theorem C190_gather [AddCommMonoid α] {R X : View} {a b : Nat} {g : GMap} {es : List (Int × Int)} {m : Buf α}
    {f : List Nat → α} (hg : g.forEach = .ok es) (h : Fits R X a b es m f) (ha : a + 1 < R.dims.length)
    (hb : b + 1 < X.dims.length) (hs : ∀ s ∈ R.strides, s < intMax) (hout : g.nOut = R.dims.getD a 0)
    (hin : g.nIn = X.dims.getD b 0) {R' X' : View} (he : coScrunchExcept R X a b = .ok (R', X')) (hk : R'.dims.length ≤ 3)
    (hr : R'.strides.getLast? = some 1) (hx : X'.strides.getLast? = some 1) :
    ∃ m', gather R X g b a m = .ok m' ∧ R.sv.Gains (gathered es f a b) m m' := by
  refine gains_of (prog := gather R X g b a) h ?_
  obtain ⟨v, w, e, hv, hw, hvw, hne, o1, o2, hl, hp⟩ := except_ok R X h.rwf h.xwf ha hb h.same hs
  rw [he] at e
  simp only [Res.ok.injEq, Prod.mk.injEq] at e
  obtain ⟨rfl, rfl⟩ := e
  refine Acc.congr (Acc.forM es _ _ fun e he' => nest_acc h (v := v) (y := w) hv hw hvw hp he' rfl rfl rfl rfl) (fun m' _ => ?_)
    fun _ => rfl
  unfold gather
  rw [he, Res.ok_bind]
  dsimp only
  rw [show ∀ (d : Nat) l, Res.get (d :: l) 0 = .ok d from fun _ _ => rfl, Res.ok_bind,
    show ∀ (d : Nat) l, Res.get (d :: l) 0 = .ok d from fun _ _ => rfl, Res.ok_bind,
    decide_eq_true hout.symm, Res.assrt_true, Res.ok_bind, decide_eq_true hin.symm, Res.assrt_true, Res.ok_bind, hg, Res.ok_bind]
  have hv' : v.strides.length = v.dims.length := hv
  have hw' : w.strides.length = w.dims.length := hw
  obtain ⟨vo, vd, vs⟩ := v
  obtain ⟨wo, wd, ws⟩ := w
  simp only at *
  subst hvw o1 o2
  match vd, vs, ws, hne, hk with
  | [d1], [r1], [x1], _, _ =>
    simp only [List.getLast?_cons_cons, List.getLast?_singleton, Option.some.injEq] at hr hx
    subst hr hx
    change fast1 _ _ _ _ _ _ _ _ _ = _
    unfold fast1
    rw [if_pos (by simp)]
    congr 1
    funext m e
    simp only [List.map_cons, List.map_nil, nest, stdadd]
    congr 1
    funext i m
    simp
  | [d1, d2], [r1, r2], [x1, x2], _, _ =>
    simp only [List.getLast?_cons_cons, List.getLast?_singleton, Option.some.injEq] at hr hx
    subst hr hx
    change fast2 _ _ _ _ _ _ _ _ _ _ _ _ = _
    unfold fast2
    rw [if_pos (by simp)]
    congr 1
    funext m e
    simp only [List.map_cons, List.map_nil, nest, stdadd]
    congr 1
    funext i m
    congr 1
    funext j m
    simp

/-- The axes of two row-major slices, as (stride, stride, size). -/
def rmAxes (D : List Nat) : List (Nat × Nat × Nat) := (rmStrides D).zip ((rmStrides D).zip D)

theorem coScrunchLoop_snoc (c d : Nat × Nat × Nat) : ∀ (l : List (Nat × Nat × Nat)) (a : Nat × Nat × Nat),
    View.coScrunchLoop a l = [c] → d.1 = c.1 * c.2.2 → d.2.1 = c.2.1 * c.2.2 →
    View.coScrunchLoop a (l ++ [d]) = [(c.1, c.2.1, c.2.2 * d.2.2)]
  | [], (s, t, n), h, h1, h2 => by
    obtain ⟨s', t', n'⟩ := d
    simp only [View.coScrunchLoop, List.cons.injEq, and_true] at h
    subst h
    simp only at h1 h2
    simp [View.coScrunchLoop, h1, h2]
  | (s', t', n') :: l, (s, t, n), h, h1, h2 => by
    rw [List.cons_append, View.coScrunchLoop]
    rw [View.coScrunchLoop] at h
    split at h
    · rename_i hc
      rw [if_pos hc]
      exact coScrunchLoop_snoc c d l _ h h1 h2
    · exfalso
      have := coScrunchLoop_ne (s', t', n') l
      rw [List.cons.injEq] at h
      exact this h.2

theorem coScrunchAxes_rm : ∀ (D : List Nat), D ≠ [] → View.coScrunchAxes (rmAxes D).reverse = [(1, 1, D.prod)]
  | [d], _ => by simp [rmAxes, rmStrides_cons, View.coScrunchAxes, View.coScrunchLoop]
  | d :: e :: ds, _ => by
    have ih := coScrunchAxes_rm (e :: ds) (by simp)
    have e1 : rmAxes (d :: e :: ds) = ((e :: ds).prod, (e :: ds).prod, d) :: rmAxes (e :: ds) := by
      simp [rmAxes, rmStrides_cons]
    rw [e1, List.reverse_cons]
    generalize hr : (rmAxes (e :: ds)).reverse = l at ih
    cases l with
    | nil => simp [View.coScrunchAxes] at ih
    | cons a l =>
      rw [List.cons_append]
      unfold View.coScrunchAxes at ih ⊢
      dsimp only at ih ⊢
      rw [coScrunchLoop_snoc _ ((e :: ds).prod, (e :: ds).prod, d) l a ih (by simp) (by simp)]
      simp [Nat.mul_comm, Nat.mul_left_comm]

theorem rmAxes_sorted : ∀ (D : List Nat), (∀ d ∈ D, 2 ≤ d) → (rmAxes D).Pairwise (fun p q => q.1 < p.1) ∧
    ∀ p ∈ rmAxes D, p.1 < D.prod
  | [], _ => by simp [rmAxes]
  | d :: ds, h => by
    obtain ⟨h1, h2⟩ := rmAxes_sorted ds fun e he => h e (by simp [he])
    have e1 : rmAxes (d :: ds) = (ds.prod, ds.prod, d) :: rmAxes ds := by simp [rmAxes, rmStrides_cons]
    have hp : 0 < ds.prod := by
      apply Nat.pos_of_ne_zero
      intro h0
      have := List.prod_eq_zero_iff.1 h0
      have := h 0 (by simp [this])
      omega
    have hd := h d (by simp)
    have : ds.prod < d * ds.prod := by
      calc ds.prod < 2 * ds.prod := by omega
        _ ≤ d * ds.prod := Nat.mul_le_mul_right _ hd
    rw [e1, List.prod_cons]
    refine ⟨List.pairwise_cons.2 ⟨h2, h1⟩, fun p hp' => ?_⟩
    rcases List.mem_cons.1 hp' with rfl | hp'
    · exact this
    · exact (h2 p hp').trans this

theorem coScrunch_rm {o o' : Nat} {D : List Nat} (hD : D ≠ []) (h2 : ∀ d ∈ D, 2 ≤ d) (hs : ∀ s ∈ rmStrides D, s < intMax) :
    View.coScrunch ⟨o, D, rmStrides D⟩ ⟨o', D, rmStrides D⟩ = .ok (⟨o, [D.prod], [1]⟩, ⟨o', [D.prod], [1]⟩) := by
  obtain ⟨k1, k2⟩ := ordering_spec (rmStrides D) hs
  have hl := rmStrides_length D
  have hax : ((ordering (rmStrides D)).map fun j => ((rmStrides D)[j]?.getD 0, (rmStrides D)[j]?.getD 0, D[j]?.getD 0)) =
      (rmAxes D).reverse := by
    have hperm : ((ordering (rmStrides D)).map fun j => ((rmStrides D)[j]?.getD 0, (rmStrides D)[j]?.getD 0, D[j]?.getD 0)).Perm
        (rmAxes D) := by
      have h1 : (List.range (rmStrides D).length).map (fun j =>
          ((rmStrides D)[j]?.getD 0, (rmStrides D)[j]?.getD 0, D[j]?.getD 0)) = rmAxes D := by
        apply List.ext_getElem
        · simp [rmAxes, hl]
        · intro i h1 h2
          have : i < D.length := by simp at h1; omega
          simp [this, hl, rmAxes]
      rw [← h1]
      exact k1.map _
    refine List.Perm.eq_of_pairwise (le := fun p q => p.1 ≤ q.1) ?_ ?_ ?_ (hperm.trans (List.reverse_perm _).symm)
    · intro p q hp hq h1 h2'
      have hp' := hperm.mem_iff.1 hp
      have hq' := List.mem_reverse.1 hq
      by_contra hne
      have hs := (rmAxes_sorted D h2).1
      obtain ⟨i, hi, rfl⟩ := List.getElem_of_mem hp'
      obtain ⟨j, hj, rfl⟩ := List.getElem_of_mem hq'
      have hs' := List.pairwise_iff_getElem.1 hs
      rcases Nat.lt_trichotomy i j with hij | hij | hij
      · have := hs' i j hi hj hij
        omega
      · subst hij
        exact hne rfl
      · have := hs' j i hj hi hij
        omega
    · rw [List.pairwise_map]
      exact k2.imp fun h => by
        dsimp only
        rcases h with h | h
        · omega
        · omega
    · rw [List.pairwise_reverse]
      exact (rmAxes_sorted D h2).1.imp fun h => by omega
  unfold View.coScrunch
  simp only [decide_true, Res.assrt_true, Res.ok_bind]
  rw [hax, coScrunchAxes_rm D hD]
  rfl

/-- C190: tensors gathered along their first axis whose slices are stored without gaps, sizes at least 2: the fast version is
right, for any number of axes. -/
theorem C190_rows [AddCommMonoid α] {R X : View} {g : GMap} {es : List (Int × Int)} {m : Buf α} {f : List Nat → α}
    (hg : g.forEach = .ok es) (h : Fits R X 0 0 es m f) {nr nx rs xs : Nat} {D : List Nat} (hD : D ≠ []) (h2 : ∀ d ∈ D, 2 ≤ d)
    (hrd : R.dims = nr :: D) (hrs : R.strides = rs :: rmStrides D) (hxd : X.dims = nx :: D) (hxs : X.strides = xs :: rmStrides D)
    (hs : ∀ s ∈ R.strides, s < intMax) (hout : g.nOut = nr) (hin : g.nIn = nx) :
    ∃ m', gather R X g 0 0 m = .ok m' ∧ R.sv.Gains (gathered es f 0 0) m m' := by
  have hl : 0 < D.length := List.length_pos_iff.2 hD
  refine C190_gather hg h (by rw [hrd]; simp; omega) (by rw [hxd]; simp; omega) hs (by rw [hrd]; exact hout)
    (by rw [hxd]; exact hin) (R' := ⟨R.off, [nr, D.prod], [rs, 1]⟩) (X' := ⟨X.off, [nx, D.prod], [xs, 1]⟩) ?_ (by simp) rfl rfl
  unfold coScrunchExcept
  dsimp only
  rw [hrd, hrs, hxd, hxs]
  rw [decide_eq_true (by simp), Res.assrt_true, Res.ok_bind, decide_eq_true (show ((0 : Nat) : Int) < ((nr :: D).length : Int) - 1 by simp; omega),
    Res.assrt_true, Res.ok_bind, Res.ok_bind, gvRemove_cut (by simp), Res.ok_bind, gvRemove_cut (by simp), Res.ok_bind,
    decide_eq_true (by simp [cut]), Res.assrt_true, Res.ok_bind, gvRemove_cut (by simp), Res.ok_bind, gvRemove_cut (by simp),
    Res.ok_bind]
  simp only [cut, List.take_zero, List.nil_append, Nat.zero_add, List.drop_succ_cons, List.drop_zero]
  rw [coScrunch_rm hD h2 fun s h' => hs s (by rw [hrs]; simp [h'])]
  rfl

/-- Two tensors of sizes 2×2×2 and 3×2×2. -/
def exR3 : View := ⟨0, [2, 2, 2], [4, 2, 1]⟩
def exX3 : View := ⟨8, [3, 2, 2], [4, 2, 1]⟩
def exM3 : Buf Int := memOf [0, 0, 0, 0, 0, 0, 0, 0, 1, 2, 3, 4, 10, 20, 30, 40, 100, 200, 300, 400]

example : coScrunchExcept exR3 exX3 0 0 = .ok (⟨0, [2, 4], [4, 1]⟩, ⟨8, [3, 4], [4, 1]⟩) := by decide

example : Fits exR3 exX3 0 0 [(1, 0), (1, 2), (0, 1)] exM3 (entries exX3.sv exM3) :=
  fits_of (by decide) (by decide) (by decide) (by decide) (by decide) (by decide) (by decide) (by decide) (by decide) (by decide)

example : after 8 (exG >>= fun g => gather exR3 exX3 g 0 0 exM3) =
    some ([10, 20, 30, 40, 101, 202, 303, 404].map some) := by decide

/-- C188 fails when the cells of a slice are not adjacent: target and source are exchanged (and one source stride is wrong). -/
theorem C188_strided_fails :
    Fits ⟨0, [2, 2], [1, 2]⟩ ⟨4, [2, 2], [1, 2]⟩ 0 0 [(1, 0), (1, 1)] (memOf [0, 0, 0, 0, 1, 2, 3, 4])
      (entries (View.sv ⟨4, [2, 2], [1, 2]⟩) (memOf [0, 0, 0, 0, 1, 2, 3, 4])) ∧
    GMap.ofMap [(1, [0, 1])] 1 1 1 1 >>= GMap.forEach = .ok [(1, 0), (1, 1)] ∧
    after 4 (GMap.ofMap [(1, [0, 1])] 1 1 1 1 >>= fun g => naive ⟨0, [2, 2], [1, 2]⟩ ⟨4, [2, 2], [1, 2]⟩ g 0 0
      (memOf [0, 0, 0, 0, 1, 2, 3, 4])) = some [some 0, some 3, some 0, some 7] ∧
    after 4 (GMap.ofMap [(1, [0, 1])] 1 1 1 1 >>= fun g => gather ⟨0, [2, 2], [1, 2]⟩ ⟨4, [2, 2], [1, 2]⟩ g 0 0
      (memOf [0, 0, 0, 0, 1, 2, 3, 4])) = some [some 2, some 4, some 2, some 4] := by
  refine ⟨?_, by decide, by decide, by decide⟩
  exact fits_of (by decide) (by decide) (by decide) (by decide) (by decide) (by decide) (by decide) (by decide) (by decide) (by decide)

/-- C188 fails with three axes left, even if the last cells are adjacent: the size of the last axis is taken from the one before
it.  Here the slices are 1×1×2 with a gap between their parts, and only the first of every two cells is added. -/
theorem C188_three_fails :
    Fits ⟨0, [1, 1, 1, 2], [40, 20, 10, 1]⟩ ⟨100, [1, 1, 1, 2], [41, 21, 11, 1]⟩ 0 0 [(0, 0)] (fun c => if c < 200 then some (c : Int) else none)
      (entries (View.sv ⟨100, [1, 1, 1, 2], [41, 21, 11, 1]⟩) (fun c => if c < 200 then some (c : Int) else none)) ∧
    after 2 (GMap.ofMap [(0, [0])] 1 1 1 1 >>= fun g => naive ⟨0, [1, 1, 1, 2], [40, 20, 10, 1]⟩ ⟨100, [1, 1, 1, 2], [41, 21, 11, 1]⟩ g 0 0
      (fun c => if c < 200 then some (c : Int) else none)) = some [some 100, some 102] ∧
    after 2 (GMap.ofMap [(0, [0])] 1 1 1 1 >>= fun g => gather ⟨0, [1, 1, 1, 2], [40, 20, 10, 1]⟩ ⟨100, [1, 1, 1, 2], [41, 21, 11, 1]⟩ g 0 0
      (fun c => if c < 200 then some (c : Int) else none)) = some [some 100, some 1] := by
  refine ⟨?_, by decide, by decide⟩
  exact fits_of (by decide) (by decide) (by decide) (by decide) (by decide) (by decide) (by decide) (by decide) (by decide) (by decide)

/-- C188 fails with more than three axes left: nothing is added. -/
theorem C188_four_fails [Add α] (R X : View) (a b : Nat) (g : GMap) (m : Buf α) {es : List (Int × Int)} (hg : g.forEach = .ok es)
    {R' X' : View} (he : coScrunchExcept R X a b = .ok (R', X')) {d0 x0 : Nat} {D S : List Nat} (hd : R'.dims = d0 :: D)
    (hx : X'.dims = x0 :: D) (hs : R'.strides = S) (hl : 4 < S.length) (hout : g.nOut = d0) (hin : g.nIn = x0) :
    gather R X g b a m = .ok m := by
  unfold gather
  rw [he, Res.ok_bind]
  dsimp only
  rw [hd, hx, show ∀ (d : Nat) l, Res.get (d :: l) 0 = .ok d from fun _ _ => rfl, Res.ok_bind,
    show ∀ (d : Nat) l, Res.get (d :: l) 0 = .ok d from fun _ _ => rfl, Res.ok_bind,
    decide_eq_true hout.symm, Res.assrt_true, Res.ok_bind, decide_eq_true hin.symm, Res.assrt_true, Res.ok_bind, hg, Res.ok_bind,
    hs]
  match S, hl with
  | _ :: _ :: _ :: _ :: _ :: _, _ => rfl

example : coScrunchExcept ⟨0, [2, 2, 2, 2, 2], [160, 80, 40, 20, 10]⟩ ⟨400, [2, 2, 2, 2, 2], [161, 81, 41, 21, 11]⟩ 0 0 =
    .ok (⟨0, [2, 2, 2, 2, 2], [160, 80, 40, 20, 10]⟩, ⟨400, [2, 2, 2, 2, 2], [161, 81, 41, 21, 11]⟩) := by decide

/-! ## C191: results made by the call -/

theorem put_dims {a : Nat} {l : List Nat} {n : Nat} (h : a ≤ l.length) : gvInsert l a n = .ok (put a n l) := by
  simp [gvInsert, h, put]

theorem fresh_fits [Zero α] {X : View} {a b n q : Nat} {es : List (Int × Int)} {m : Buf α} {f : List Nat → α} (hX : X.WF)
    (hb : b < X.dims.length) (ha : a < X.dims.length)
    (he : ∀ e ∈ es, (0 ≤ e.1 ∧ e.1 < (n : Int)) ∧ 0 ≤ e.2 ∧ e.2 < X.dims.getD b 0) (hv : X.sv.Holds m f)
    (hf : ∀ c, q ≤ c → c < q + asize (put a n (cut b X.dims)) → m c = none) :
    Fits ⟨q, put a n (cut b X.dims), rmStrides (put a n (cut b X.dims))⟩ X a b es
      (allocZero m q (asize (put a n (cut b X.dims)))) f := by
  have hl : (cut b X.dims).length = X.dims.length - 1 := cut_length hb
  have hl' : (put a n (cut b X.dims)).length = X.dims.length := by simp [put]; omega
  have hsv : View.sv ⟨q, put a n (cut b X.dims), rmStrides (put a n (cut b X.dims))⟩ = fresh q (put a n (cut b X.dims)) := rfl
  refine ⟨by simp [View.WF, rmStrides_length], hX, by dsimp only; omega, hb, cut_put (by omega), ?_, ?_, ?_, ?_, holds_alloc hv hf⟩
  · dsimp only
    rw [put_getD (by omega)]
    exact he
  · rw [hsv]
    intro ix hix
    have hix' : InRange ix (put a n (cut b X.dims)) := hix
    have hp := position_lt hix'
    rw [SV.val, fresh_cell q _ ix hix', Buf.cellAt, if_pos (by omega), Int.toNat_natCast, allocZero,
      if_pos ⟨by omega, by rw [asize_eq]; omega⟩]
    rfl
  · rw [hsv]
    intro ix jx hix hjx e
    have hix' : InRange ix (put a n (cut b X.dims)) := hix
    have hjx' : InRange jx (put a n (cut b X.dims)) := hjx
    rw [fresh_cell q _ ix hix', fresh_cell q _ jx hjx'] at e
    exact position_inj hix' hjx' (by omega)
  · rw [hsv]
    exact Inputs.apart hv hf

/-- C191: the plain version that makes its result returns a new tensor whose axis `a` has one entry per target, each slice
being the sum of its source slices; nothing else changes. -/
theorem C191_naive [AddCommMonoid α] {X : View} {a b q : Nat} {g : GMap} {es : List (Int × Int)} {m : Buf α} {f : List Nat → α}
    (hg : g.forEach = .ok es) (hX : X.WF) (hb : b < X.dims.length) (ha : a < X.dims.length) (h4 : X.dims.length < 5) {n : Nat}
    (hout : g.nOut = n) (hin : g.nIn = X.dims.getD b 0)
    (he : ∀ e ∈ es, (0 ≤ e.1 ∧ e.1 < g.nOut) ∧ 0 ≤ e.2 ∧ e.2 < g.nIn) (hv : X.sv.Holds m f)
    (hf : ∀ c, q ≤ c → c < q + (put a n (cut b X.dims)).prod → m c = none) :
    ∃ R m', make false X g b a q m = .ok (R, m') ∧ R.dims = put a n (cut b X.dims) ∧ R.sv.Holds m' (gathered es f a b) ∧
      ∀ c, c < q ∨ q + (put a n (cut b X.dims)).prod ≤ c → m' c = m c := by
  have hl : (cut b X.dims).length = X.dims.length - 1 := cut_length hb
  have hl' : (put a n (cut b X.dims)).length = X.dims.length := by simp [put]; omega
  rw [hout, hin] at he
  obtain ⟨m', e, hG⟩ := C189_naive hg (fresh_fits hX hb ha he hv (by rw [asize_eq]; exact hf)) (by dsimp only; omega)
  obtain ⟨k1, k2⟩ := made_gains (q := q) (dims := put a n (cut b X.dims)) hG
  refine ⟨⟨q, put a n (cut b X.dims), rmStrides (put a n (cut b X.dims))⟩, m', ?_, rfl, k1, k2⟩
  unfold make
  rw [get_getD hb, Res.ok_bind, decide_eq_true hin, Res.assrt_true, Res.ok_bind, gvRemove_cut hb, Res.ok_bind, hout,
    decide_eq_true (show (0 : Int) ≤ n by omega), Res.need_true, Res.ok_bind, Int.toNat_natCast, put_dims (by omega), Res.ok_bind]
  dsimp only
  rw [if_neg (by simp), e, Res.ok_bind]

/-- C191: a map made for another number of slices is refused. -/
theorem C191_refuses [Zero α] [Add α] (fast : Bool) (X : View) (g : GMap) (a b q : Nat) (m : Buf α) (hb : b < X.dims.length)
    (h : g.nIn ≠ X.dims.getD b 0) : make fast X g b a q m = .throw := by
  unfold make
  rw [get_getD hb, Res.ok_bind, decide_eq_false h]
  rfl

example : (exG >>= fun g => (make false ⟨0, [2, 3], [3, 1]⟩ g 1 0 6 (memOf [1, 2, 3, 10, 20, 30])) >>= fun r =>
    .ok (r.1, (List.range 10).map r.2)) =
    .ok (⟨6, [2, 2], [2, 1]⟩, [1, 2, 3, 10, 20, 30, 2, 20, 4, 40].map some) := by decide

end Slices

end Cnine
