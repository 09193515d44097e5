import Verif.Lemmas.GatherRows
import Verif.Props.Gather
import Verif.Props.GatherW
import Mathlib.Tactic.Ring

/-!
# C44: gathering rows
-/

namespace Cnine

open GatherSpec

variable {α : Type}

namespace GatherRows

/-- Cell `c` of block `t`, when each row of the matrix `v` (strides `s0`, `s1`, `P` columns) is divided into `cols`
blocks, numbered along the rows. -/
def blockCell (v : View) (P s0 s1 cols t c : Nat) : Nat :=
  v.off + (t / cols) * s0 + ((t % cols) * (P / cols) + c) * s1

theorem fold_cell (v : View) {R P s0 s1 cols colsN : Nat} (hc : 0 < cols) (hP : P % cols = 0)
    (hrow : cols = 1 ∨ s0 = P * s1) (t c : Nat) :
    ((⟨v.off, R, P, s0, s1⟩ : M2).fold cols colsN).cell t c = (blockCell v P s0 s1 cols t c : Nat) := by
  have e : t * (s0 / cols) = (t / cols) * s0 + (t % cols) * (P / cols) * s1 := by
    rcases hrow with rfl | rfl
    · simp [Nat.mod_one]
    · obtain ⟨q, rfl⟩ := Nat.dvd_of_mod_eq_zero hP
      have h1 : cols * q / cols = q := Nat.mul_div_cancel_left _ hc
      have h2 : cols * q * s1 / cols = q * s1 := by rw [Nat.mul_assoc]; exact Nat.mul_div_cancel_left _ hc
      rw [h1, h2]
      have h3 := Nat.div_add_mod t cols
      calc t * (q * s1) = (cols * (t / cols) + t % cols) * (q * s1) := by rw [h3]
        _ = _ := by ring
  have e2 : ((s0 : Int).tdiv cols) = ((s0 / cols : Nat) : Int) := by
    rw [Int.tdiv_eq_ediv_of_nonneg (by omega)]; rfl
  unfold M2.cell M2.fold blockCell
  dsimp only
  rw [e2]
  have e3 : (t : Int) * ((s0 / cols : Nat) : Int) = (((t / cols) * s0 + (t % cols) * (P / cols) * s1 : Nat) : Int) := by
    rw [← e]; push_cast; rfl
  rw [e3]
  push_cast
  ring

theorem fold_n1 {off R P s0 s1 : Int} {cols colsN P' : Nat} (hP : P = P') :
    ((⟨off, R, P, s0, s1⟩ : M2).fold cols colsN).n1 = ((P' * colsN / cols : Nat) : Int) := by
  subst hP
  unfold M2.fold
  dsimp only
  rw [Int.tdiv_eq_ediv_of_nonneg (Int.mul_nonneg (by omega) (by omega))]
  push_cast
  rfl

theorem checks_ok {r x : View} {R P X Q oc ic : Nat} (hr : r.dims = [R, P]) (hx : x.dims = [X, Q])
    (hoc : 0 < oc) (hP : P % oc = 0) (hic : 0 < ic) (hQ : Q % ic = 0) : checks r x oc ic = .ok () := by
  unfold checks
  rw [hr, hx]
  simp [hP, hQ, show oc ≠ 0 by omega, show ic ≠ 0 by omega]

theorem ofView_ok {v : View} {d0 d1 s0 s1 : Nat} (hd : v.dims = [d0, d1]) (hs : v.strides = [s0, s1]) :
    M2.ofView v = .ok ⟨v.off, d0, d1, s0, s1⟩ := by
  unfold M2.ofView
  rw [hd, hs]

/-- The additions to be made: `(cell, value)` for every edge (t,s) and every column. -/
def toAdd (rc : Nat → Nat → Nat) (xv : Nat → Nat → α) (w : Nat) (es : List (Int × Int)) : List (Nat × α) :=
  es.flatMap fun e => (List.range w).map fun c => (rc e.1.toNat c, xv e.2.toNat c)

/-- The hypotheses on two matrices whose rows are divided into blocks, and the memory. -/
structure Setting (r x : View) (R P X Q rs0 rs1 xs0 xs1 oc ocn ic icn w : Nat) : Prop where
  rd : r.dims = [R, P]
  rs : r.strides = [rs0, rs1]
  xd : x.dims = [X, Q]
  xs : x.strides = [xs0, xs1]
  oc_pos : 0 < oc
  oc_dvd : P % oc = 0
  ic_pos : 0 < ic
  ic_dvd : Q % ic = 0
  rrow : oc = 1 ∨ rs0 = P * rs1
  xrow : ic = 1 ∨ xs0 = Q * xs1
  rw : P * ocn / oc = w
  xw : Q * icn / ic = w

/-- The memory holds the blocks of `x`, has the blocks of `r`, and they do not meet. -/
structure Mem (rc xc : Nat → Nat → Nat) (nr nx w : Nat) (xv : Nat → Nat → α) (m : Buf α) : Prop where
  out : ∀ t c, t < nr → c < w → (m (rc t c)).isSome
  inn : ∀ s c, s < nx → c < w → m (xc s c) = some (xv s c)
  apart : ∀ t s c d, t < nr → s < nx → c < w → d < w → rc t c ≠ xc s d

theorem ready {r x : View} {R P X Q rs0 rs1 xs0 xs1 oc ocn ic icn w : Nat}
    (S : Setting r x R P X Q rs0 rs1 xs0 xs1 oc ocn ic icn w) {nr nx : Nat} {xv : Nat → Nat → α} {m : Buf α}
    (hm : Mem (blockCell r P rs0 rs1 oc) (blockCell x Q xs0 xs1 ic) nr nx w xv m) :
    Ready ((⟨r.off, R, P, rs0, rs1⟩ : M2).fold oc ocn) ((⟨x.off, X, Q, xs0, xs1⟩ : M2).fold ic icn) w
      (fun t => 0 ≤ t ∧ t < nr) (fun s => 0 ≤ s ∧ s < nx) (fun s c => xv s.toNat c) m := by
  have hr : ∀ t : Int, 0 ≤ t → ∀ c, ((⟨r.off, R, P, rs0, rs1⟩ : M2).fold oc ocn).cell t c =
      (blockCell r P rs0 rs1 oc t.toNat c : Nat) := by
    intro t ht c
    obtain ⟨k, rfl⟩ := Int.eq_ofNat_of_zero_le ht
    exact fold_cell r S.oc_pos S.oc_dvd S.rrow k c
  have hx : ∀ t : Int, 0 ≤ t → ∀ c, ((⟨x.off, X, Q, xs0, xs1⟩ : M2).fold ic icn).cell t c =
      (blockCell x Q xs0 xs1 ic t.toNat c : Nat) := by
    intro t ht c
    obtain ⟨k, rfl⟩ := Int.eq_ofNat_of_zero_le ht
    exact fold_cell x S.ic_pos S.ic_dvd S.xrow k c
  refine ⟨?_, ?_, ?_, ?_, ?_⟩
  · rw [fold_n1 rfl, S.rw]
  · rw [fold_n1 rfl, S.xw]
  · intro t ht c hc
    rw [hr t ht.1, Int.toNat_natCast]
    exact ⟨by omega, hm.out _ _ (by omega) hc⟩
  · intro s hs c hc
    rw [hx s hs.1, Int.toNat_natCast]
    exact ⟨by omega, hm.inn _ _ (by omega) hc⟩
  · intro t s ht hs c d hc hd
    rw [hr t ht.1, hx s hs.1]
    have := hm.apart t.toNat s.toNat c d (by omega) (by omega) hc hd
    omega

theorem adds_eq {r x : View} {R P X Q rs0 rs1 xs0 xs1 oc ocn ic icn w : Nat}
    (S : Setting r x R P X Q rs0 rs1 xs0 xs1 oc ocn ic icn w) (xv : Nat → Nat → α) {es : List (Int × Int)}
    (he : ∀ e ∈ es, 0 ≤ e.1) :
    adds ((⟨r.off, R, P, rs0, rs1⟩ : M2).fold oc ocn) w (fun s c => xv s.toNat c) es =
      toAdd (blockCell r P rs0 rs1 oc) xv w es := by
  unfold adds toAdd edgeAdds
  apply List.flatMap_congr
  intro e hm
  apply List.map_congr_left
  intro c _
  obtain ⟨k, hk⟩ := Int.eq_ofNat_of_zero_le (he e hm)
  rw [hk, fold_cell r S.oc_pos S.oc_dvd S.rrow k c]
  rfl

theorem gather_plus [AddCommMonoid α] {g : GMap} (hg : GMap.Made g) {es : List (Int × Int)} (hes : g.forEach = .ok es)
    {r x : View} {R P X Q rs0 rs1 xs0 xs1 w : Nat}
    (S : Setting r x R P X Q rs0 rs1 xs0 xs1 g.outCols g.outColsN g.inCols g.inColsN w)
    {nr nx : Nat} {xv : Nat → Nat → α} {m : Buf α}
    (hm : Mem (blockCell r P rs0 rs1 g.outCols) (blockCell x Q xs0 xs1 g.inCols) nr nx w xv m)
    (he : ∀ e ∈ es, (0 ≤ e.1 ∧ e.1 < nr) ∧ 0 ≤ e.2 ∧ e.2 < nx) :
    gather g [] r x m = .ok (m.plus (addTo (toAdd (blockCell r P rs0 rs1 g.outCols) xv w es))) := by
  obtain ⟨rows, hr, _⟩ := hg.holds
  rw [GMap.forEach_ok hr] at hes
  cases hes
  have hz : g.arr.size = rows.length := by simpa using (HL.Holds.reads hr).size
  unfold gather
  rw [checks_ok S.rd S.xd S.oc_pos S.oc_dvd S.ic_pos S.ic_dvd, Res.ok_bind, Res.forM_nil, Res.ok_bind]
  unfold plain
  rw [← adds_eq S xv (fun e h => (he e h).1.1)]
  have h := rowsLoop_ok hr (T := fun t => 0 ≤ t ∧ t < nr) (S := fun s => 0 ≤ s ∧ s < nx)
    (xv := fun s c => xv s.toNat c) (n := w) (r := (⟨r.off, R, P, rs0, rs1⟩ : M2).fold g.outCols g.outColsN)
    (x := (⟨x.off, X, Q, xs0, xs1⟩ : M2).fold g.inCols g.inColsN)
    (fun q hq hne => by
      obtain ⟨s, hs⟩ := List.exists_mem_of_ne_nil _ hne
      exact (he (q.1, s) (GMap.mem_edges' hq hs)).1)
    (fun q hq s hs => (he (q.1, s) (GMap.mem_edges' hq hs)).2) rows.length 0 (m := m) (by omega) (ready S hm)
  rw [List.drop_zero] at h
  by_cases hn : g.arr.size = 0
  · rw [if_pos hn]
    have : rows = [] := List.length_eq_zero_iff.mp (by omega)
    subst this
    congr 1
    exact (Buf.plus_zero m).symm
  · rw [if_neg hn, ofView_ok S.rd S.rs, Res.ok_bind, ofView_ok S.xd S.xs, Res.ok_bind]
    dsimp only
    rw [Pool.assrt_pos (by rw [fold_n1 rfl, fold_n1 rfl, S.rw, S.xw]), Res.ok_bind, hz, Int.toNat_natCast]
    exact h

/-- C44: gathering adds to every cell of block `t` the corresponding cells of the source blocks of `t`, over all
edges with multiplicity (blocks may overlap), and leaves all other cells alone. -/
theorem C44_gather_partial [AddCommMonoid α] {g : GMap} (hg : GMap.Made g) {es : List (Int × Int)} (hes : g.forEach = .ok es)
    {r x : View} {R P X Q rs0 rs1 xs0 xs1 w : Nat}
    (S : Setting r x R P X Q rs0 rs1 xs0 xs1 g.outCols g.outColsN g.inCols g.inColsN w)
    {nr nx : Nat} {xv : Nat → Nat → α} {m : Buf α}
    (hm : Mem (blockCell r P rs0 rs1 g.outCols) (blockCell x Q xs0 xs1 g.inCols) nr nx w xv m)
    (he : ∀ e ∈ es, (0 ≤ e.1 ∧ e.1 < nr) ∧ 0 ≤ e.2 ∧ e.2 < nx) :
    ∃ m', gather g [] r x m = .ok m' ∧ ∀ a, m' a = (m a).map (· + (es.map fun e => ((List.range w).map fun c =>
      if a = blockCell r P rs0 rs1 g.outCols e.1.toNat c then xv e.2.toNat c else 0).sum).sum) := by
  refine ⟨_, gather_plus hg hes S hm he, ?_⟩
  intro a
  unfold Buf.plus
  congr 1
  funext u
  congr 1
  unfold addTo toAdd
  clear hm he hes
  induction es with
  | nil => rfl
  | cons e l ih =>
    rw [List.flatMap_cons, List.map_append, List.sum_append, List.map_cons, List.sum_cons, ih, List.map_map]
    rfl

theorem sum_filter [AddCommMonoid α] {ι : Type _} (p : ι → Prop) [DecidablePred p] (f : ι → α) (l : List ι) :
    (l.map fun e => if p e then f e else 0).sum = ((l.filter fun e => p e).map f).sum := by
  induction l with
  | nil => rfl
  | cons a l ih =>
    by_cases h : p a
    · simp [h, ih]
    · simp [h, ih]

theorem sum_pick [AddCommMonoid α] {ι : Type _} [DecidableEq ι] (f : ι → α) (c : ι) : ∀ (l : List ι), l.Nodup → c ∈ l →
    (l.map fun d => if c = d then f d else 0).sum = f c
  | d :: l, hn, h => by
    obtain ⟨h1, h2⟩ := List.nodup_cons.mp hn
    rw [List.map_cons, List.sum_cons]
    by_cases e : c = d
    · subst e
      rw [if_pos rfl, List.sum_eq_zero, add_zero]
      intro v hv
      obtain ⟨b, hb, rfl⟩ := List.mem_map.mp hv
      exact if_neg (fun (e : c = b) => h1 (by rw [e]; exact hb))
    · rw [if_neg e, zero_add]
      exact sum_pick f c l h2 ((List.mem_cons.mp h).resolve_left e)

/-- C44 with blocks that do not overlap: every target block receives the sum of its source blocks. -/
theorem C44_gather_rows_partial [AddCommMonoid α] {g : GMap} (hg : GMap.Made g) {es : List (Int × Int)}
    (hes : g.forEach = .ok es) {r x : View} {R P X Q rs0 rs1 xs0 xs1 w : Nat}
    (S : Setting r x R P X Q rs0 rs1 xs0 xs1 g.outCols g.outColsN g.inCols g.inColsN w)
    {nr nx : Nat} {xv : Nat → Nat → α} {m : Buf α}
    (hm : Mem (blockCell r P rs0 rs1 g.outCols) (blockCell x Q xs0 xs1 g.inCols) nr nx w xv m)
    (he : ∀ e ∈ es, (0 ≤ e.1 ∧ e.1 < nr) ∧ 0 ≤ e.2 ∧ e.2 < nx)
    (hd : ∀ t c t' c', t < nr → t' < nr → c < w → c' < w →
      blockCell r P rs0 rs1 g.outCols t c = blockCell r P rs0 rs1 g.outCols t' c' → t = t' ∧ c = c') :
    ∃ m', gather g [] r x m = .ok m' ∧
      (∀ t c, t < nr → c < w → m' (blockCell r P rs0 rs1 g.outCols t c) =
        (m (blockCell r P rs0 rs1 g.outCols t c)).map (· + ((es.filter fun e => e.1 = (t : Int)).map fun e => xv e.2.toNat c).sum)) ∧
      (∀ a, (∀ t c, t < nr → c < w → a ≠ blockCell r P rs0 rs1 g.outCols t c) → m' a = m a) := by
  obtain ⟨m', e1, e2⟩ := C44_gather_partial hg hes S hm he
  refine ⟨m', e1, ?_, ?_⟩
  · intro t c ht hc
    rw [e2]
    congr 1
    funext u
    congr 1
    rw [← sum_filter]
    congr 1
    apply List.map_congr_left
    intro e hmem
    obtain ⟨h1, h2⟩ := (he e hmem).1
    by_cases c0 : e.1 = t
    · rw [if_pos c0, ← sum_pick (fun d => xv e.2.toNat d) c (List.range w) List.nodup_range (List.mem_range.mpr hc)]
      congr 1
      apply List.map_congr_left
      intro d hd'
      rw [c0]
      by_cases c1 : c = d
      · subst c1; simp
      · rw [if_neg, if_neg c1]
        intro hh
        exact c1 (hd t c t d ht ht hc (List.mem_range.mp hd') (by simpa using hh)).2
    · rw [if_neg c0, List.sum_eq_zero]
      intro v hv
      obtain ⟨d, hd', rfl⟩ := List.mem_map.mp hv
      rw [if_neg]
      intro hh
      have := (hd t c e.1.toNat d ht (by omega) hc (List.mem_range.mp hd') hh).1
      omega
  · intro a ha
    rw [e2]
    have : (es.map fun e => ((List.range w).map fun c =>
        if a = blockCell r P rs0 rs1 g.outCols e.1.toNat c then xv e.2.toNat c else 0).sum).sum = 0 := by
      apply List.sum_eq_zero
      intro v hv
      obtain ⟨e, hmem, rfl⟩ := List.mem_map.mp hv
      apply List.sum_eq_zero
      intro v hv
      obtain ⟨d, hd', rfl⟩ := List.mem_map.mp hv
      rw [if_neg]
      have := (he e hmem).1
      exact ha _ _ (by omega) (List.mem_range.mp hd')
    rw [this]
    cases m a <;> simp

/-- Two matrices after each other in the memory: `r` 2×2 at 0, `x` 3×2 at 4. -/
def exR : View := ⟨0, [2, 2], [2, 1]⟩
def exX : View := ⟨4, [3, 2], [2, 1]⟩
def exM : Buf Nat := Buf.ofList [0, 0, 100, 200, 1, 2, 10, 20, 5, 6]

/-- The values of `exX`. -/
def exV (s c : Nat) : Nat := [1, 2, 10, 20, 5, 6].getD (s * 2 + c) 0

example : Setting exR exX 2 2 3 2 2 1 2 1 1 1 1 1 2 := by
  constructor <;> simp [exR, exX]

example : Mem (blockCell exR 2 2 1 1) (blockCell exX 2 2 1 1) 2 3 2 exV exM := by
  constructor
  · have : ∀ t < 2, ∀ c < 2, (exM (blockCell exR 2 2 1 1 t c)).isSome := by decide
    exact fun t c h1 h2 => this t h1 c h2
  · have : ∀ t < 3, ∀ c < 2, exM (blockCell exX 2 2 1 1 t c) = some (exV t c) := by decide
    exact fun t c h1 h2 => this t h1 c h2
  · have : ∀ t < 2, ∀ s < 3, ∀ c < 2, ∀ d < 2, blockCell exR 2 2 1 1 t c ≠ blockCell exX 2 2 1 1 s d := by decide
    exact fun t s c d h1 h2 h3 h4 => this t h1 s h2 c h3 d h4

example : ∀ t < 2, ∀ c < 2, ∀ t' < 2, ∀ c' < 2,
    (t = t' ∧ c = c') ∨ blockCell exR 2 2 1 1 t c ≠ blockCell exR 2 2 1 1 t' c' := by decide

/-- Cells 0..9 of a memory. -/
def cells10 (m : Buf Nat) : List (Option Nat) := (List.range 10).map m

example : (GMap.ofMap [(1, [0, 2]), (0, [1, 1, 0])] 1 1 1 1 >>= fun g => g.forEach) =
    .ok [(1, 0), (1, 2), (0, 1), (0, 1), (0, 0)] := by decide

example : ∃ m', (GMap.ofMap [(1, [0, 2]), (0, [1, 1, 0])] 1 1 1 1 >>= fun g => gather g [] exR exX exM) = .ok m' ∧
    cells10 m' = [21, 42, 106, 208, 1, 2, 10, 20, 5, 6].map some := ⟨_, rfl, by decide⟩

/-- C44: rows of different width are refused. -/
theorem C44_width_throw [Add α] (g : GMap) (hz : g.arr.size ≠ 0) (r x : View) {R P X Q rs0 rs1 xs0 xs1 : Nat}
    (hr : r.dims = [R, P]) (hrs : r.strides = [rs0, rs1]) (hx : x.dims = [X, Q]) (hxs : x.strides = [xs0, xs1])
    (h1 : 0 < g.outCols) (h2 : 0 < g.inCols)
    (h : P % g.outCols ≠ 0 ∨ Q % g.inCols ≠ 0 ∨ P * g.outColsN / g.outCols ≠ Q * g.inColsN / g.inCols) (m : Buf α) :
    gather g [] r x m = .throw := by
  unfold gather checks plain
  rw [hr, hx]
  by_cases c1 : P % g.outCols = 0
  · by_cases c2 : Q % g.inCols = 0
    · have h3 : P * g.outColsN / g.outCols ≠ Q * g.inColsN / g.inCols := by
        rcases h with h | h | h
        · exact absurd c1 h
        · exact absurd c2 h
        · exact h
      have e : ((⟨r.off, R, P, rs0, rs1⟩ : M2).fold g.outCols g.outColsN).n1 ≠
          ((⟨x.off, X, Q, xs0, xs1⟩ : M2).fold g.inCols g.inColsN).n1 := by
        rw [fold_n1 rfl, fold_n1 rfl]
        intro hh
        exact h3 (by exact_mod_cast hh)
      simp [c1, c2, show g.outCols ≠ 0 by omega, show g.inCols ≠ 0 by omega, hz, ofView_ok hr hrs, ofView_ok hx hxs, e]
    · simp [c1, c2, show g.outCols ≠ 0 by omega, show g.inCols ≠ 0 by omega]
  · simp [c1, show g.outCols ≠ 0 by omega]

example : (GMap.ofMap [(1, [0])] 1 2 1 1 >>= fun g => gather g [] exR exX exM >>= fun _ => .ok ()) = .throw := rfl

/-- C44 is false for a padded matrix with two blocks per row: `r` is 1×4 with rows 6 apart, `x` is 2×2.  Block 1
of row 0 (cells 2, 3) should receive row 0 of `x`; the code adds it at 6/2=3. -/
theorem C44_padded_fails : ∃ m', (GMap.ofMap [(1, [0])] 2 1 1 1 >>= fun g =>
      gather g [] ⟨0, [1, 4], [6, 1]⟩ ⟨6, [2, 2], [2, 1]⟩ (Buf.ofList [0, 0, 0, 0, 0, 0, 7, 8, 9, 9])) = .ok m' ∧
    cells10 m' = [0, 0, 0, 7, 8, 0, 7, 8, 9, 9].map some ∧
    blockCell ⟨0, [1, 4], [6, 1]⟩ 4 6 1 2 1 0 = 2 := ⟨_, rfl, by decide, by decide⟩

/-- C44 is false for an index outside of the matrix: it is not refused (undefined when outside of the memory). -/
theorem C44_range_fails : (GMap.ofMap [(0, [3])] 1 1 1 1 >>= fun g => gather g [] exR exX exM) = .ub := rfl

/-! ## The adjoint -/

/-- What gathering along `es` puts into column `c` of row `t`. -/
def gathered [AddCommMonoid α] (es : List (Int × Int)) (x : Nat → Nat → α) (t c : Nat) : α :=
  ((es.filter fun e => e.1 = (t : Int)).map fun e => x e.2.toNat c).sum

theorem sum_fiber [CommSemiring α] (n : Nat) (y : Nat → α) (f : Int → α) : ∀ (es : List (Int × Int)),
    (∀ e ∈ es, 0 ≤ e.1 ∧ e.1 < n) →
    ((List.range n).map fun (t : Nat) => ((es.filter fun e => e.1 = (t : Int)).map fun e => f e.2).sum * y t).sum =
      (es.map fun e => f e.2 * y e.1.toNat).sum
  | [], _ => by
    simp only [List.filter_nil, List.map_nil, List.sum_nil, zero_mul]
    exact List.sum_eq_zero (by simp)
  | e :: es, h => by
    have ih := sum_fiber n y f es (fun x hx => h x (List.mem_cons_of_mem _ hx))
    rw [List.map_cons, List.sum_cons, ← ih]
    have hk := h e (by simp)
    have h1 := sum_pick (fun t => f e.2 * y t) e.1.toNat (List.range n) List.nodup_range
      (List.mem_range.mpr (by omega))
    rw [← h1, ← List.sum_map_add]
    congr 1
    apply List.map_congr_left
    intro t _
    by_cases c : e.1 = t
    · have c' : e.1.toNat = t := by omega
      rw [if_pos c', List.filter_cons_of_pos (by simpa using c), List.map_cons, List.sum_cons, add_mul]
    · have c' : ¬ e.1.toNat = t := by omega
      rw [if_neg c', List.filter_cons_of_neg (by simpa using c), zero_add]

/-- C44: gathering with the inverse map is the transpose: ⟨gather x, y⟩ = ⟨x, gather⁻¹ y⟩. -/
theorem C44_adjoint [CommSemiring α] {g g' : GMap} (hg : GMap.Made g) (hi : g.makeInv = .ok g')
    {es es' : List (Int × Int)} (h1 : g.forEach = .ok es) (h2 : g'.forEach = .ok es') (n n' w : Nat)
    (he : ∀ e ∈ es, (0 ≤ e.1 ∧ e.1 < n) ∧ 0 ≤ e.2 ∧ e.2 < n') (x y : Nat → Nat → α) :
    ((List.range w).map fun c => ((List.range n).map fun t => gathered es x t c * y t c).sum).sum =
    ((List.range w).map fun c => ((List.range n').map fun s => x s c * gathered es' y s c).sum).sum := by
  obtain ⟨es0, g0, es1, a1, a2, a3, a4, _⟩ := GMap.C42_inv hg
  rw [h1] at a1; cases a1
  rw [hi] at a2; cases a2
  rw [h2] at a3; cases a3
  congr 1
  apply List.map_congr_left
  intro c _
  unfold gathered
  rw [sum_fiber n (fun t => y t c) (fun s => x s.toNat c) es (fun e h => (he e h).1)]
  have he' : ∀ e ∈ es', 0 ≤ e.1 ∧ e.1 < n' := by
    intro e hm
    obtain ⟨e0, h0, rfl⟩ := List.mem_map.mp (a4.mem_iff.mp hm)
    exact (he e0 h0).2
  have := sum_fiber n' (fun s => x s c) (fun t => y t.toNat c) es' he'
  simp only [mul_comm (x _ c)]
  rw [this]
  rw [((a4.map fun e => y e.2.toNat c * x e.1.toNat c)).sum_eq]
  unfold reversed
  rw [List.map_map]
  congr 1

example : (GMap.exMap >>= fun g => g.makeInv >>= fun g' => g.forEach >>= fun es => g'.forEach >>= fun es' =>
    .ok (((List.range 4).map fun t => gathered es (fun s _ => s + 1) t 0 * (t + 3)).sum,
      ((List.range 3).map fun s => (s + 1) * gathered es' (fun t _ => t + 3) s 0).sum)) = .ok (39, 39) := by decide

/-! ## Fixed-k maps -/

/-- C44, fixed-k maps with one block per row: the rows are added along the edges. -/
theorem C44_fixedk_partial [AddCommMonoid α] (f : GMap.Fixedk) {r x : View} {R P X rs0 rs1 xs0 xs1 : Nat}
    (S : Setting r x R P X P rs0 rs1 xs0 xs1 1 1 1 1 P) {nr nx : Nat} {xv : Nat → Nat → α} {m : Buf α}
    (hm : Mem (blockCell r P rs0 rs1 1) (blockCell x P xs0 xs1 1) nr nx P xv m)
    (he : ∀ e ∈ f.edges, (0 ≤ e.1 ∧ e.1 < nr) ∧ 0 ≤ e.2 ∧ e.2 < nx) :
    ∃ m', fixedk f 1 1 r x m = .ok m' ∧ ∀ a, m' a = (m a).map (· + (f.edges.map fun e => ((List.range P).map fun c =>
      if a = blockCell r P rs0 rs1 1 e.1.toNat c then xv e.2.toNat c else 0).sum).sum) := by
  have key : ∀ (es : List (Int × Int)) (m : Buf α), (∀ e ∈ es, (0 ≤ e.1 ∧ e.1 < nr) ∧ 0 ≤ e.2 ∧ e.2 < nx) →
      Ready ((⟨r.off, R, P, rs0, rs1⟩ : M2).fold 1 1) ((⟨x.off, X, P, xs0, xs1⟩ : M2).fold 1 1) P
        (fun t => 0 ≤ t ∧ t < nr) (fun s => 0 ≤ s ∧ s < nx) (fun s c => xv s.toNat c) m →
      Res.forM es m (fun m e => (((⟨r.off, R, P, rs0, rs1⟩ : M2).fold 1 1).slice0 e.1).add
        (((⟨x.off, X, P, xs0, xs1⟩ : M2).fold 1 1).slice0 e.2) m) =
      .ok (m.plus (addTo (adds ((⟨r.off, R, P, rs0, rs1⟩ : M2).fold 1 1) P (fun s c => xv s.toNat c) es))) := by
    intro es
    induction es with
    | nil => intro m _ _; rw [Res.forM_nil]; congr 1; exact (Buf.plus_zero m).symm
    | cons e es ih =>
      intro m h1 h2
      have h3 := h1 e (by simp)
      rw [Res.forM_cons, row_add h2 h3.1 h3.2, Res.ok_bind,
        ih _ (fun e h => h1 e (List.mem_cons_of_mem _ h))
          (h2.plus (edgeAdds_mem (T := fun t : Int => 0 ≤ t ∧ t < nr) h3.1 _)), Buf.plus_plus]
      congr 2
      funext a
      unfold adds
      rw [List.flatMap_cons, addTo_append]
  have hfin : fixedk f 1 1 r x m = .ok (m.plus (addTo (toAdd (blockCell r P rs0 rs1 1) xv P f.edges))) := by
    unfold fixedk
    rw [ofView_ok S.rd S.rs, ofView_ok S.xd S.xs]
    have k := key f.edges m he (ready S hm)
    rw [adds_eq S xv (fun e h => (he e h).1.1)] at k
    have e1 : ∀ (o d0 d1 s0 s1 : Nat), (⟨o, d0, d1, s0, s1⟩ : M2).fold 1 1 = ⟨o, (d0 : Int).tdiv (1 : Nat), (d1 : Int) * (1 : Nat), s0, s1⟩ := by
      intro o d0 d1 s0 s1
      simp [M2.fold]
    rw [e1, e1] at k
    rw [S.rd, S.xd]
    simp only [List.length_cons, List.length_nil, Nat.mod_one]
    exact k
  refine ⟨_, hfin, ?_⟩
  · intro a
    unfold Buf.plus
    congr 1
    funext u
    congr 1
    unfold addTo toAdd
    clear he
    induction f.edges with
    | nil => rfl
    | cons e l ih =>
      rw [List.flatMap_cons, List.map_append, List.sum_append, List.map_cons, List.sum_cons, ih, List.map_map]
      rfl

example : ∃ m', fixedk ⟨2, 2, [1, 0, 2, 0, 1, 1]⟩ 1 1 exR exX exM = .ok m' ∧
    cells10 m' = [20, 40, 106, 208, 1, 2, 10, 20, 5, 6].map some := ⟨_, rfl, by decide⟩

/-! ## Weighted maps -/

/-- C44, the weighted pass alone (`GatherRows::weighted`): every target block receives the weighted sum. -/
theorem C44_weighted [Semiring α] (wt : Int → α) {g : GMap} (hg : WMap.Made g) {es : List (Int × Int × Int)}
    (hes : WMap.forEach g = .ok es) {r x : View} {R P X Q rs0 rs1 xs0 xs1 w : Nat}
    (S : Setting r x R P X Q rs0 rs1 xs0 xs1 g.outCols 1 g.inCols 1 w) {nr nx : Nat} {xv : Nat → Nat → α} {m : Buf α}
    (hm : Mem (blockCell r P rs0 rs1 g.outCols) (blockCell x Q xs0 xs1 g.inCols) nr nx w xv m)
    (he : ∀ e ∈ es, (0 ≤ e.1 ∧ e.1 < nr) ∧ 0 ≤ e.2.1 ∧ e.2.1 < nx) :
    ∃ m', weighted wt g r x m = .ok m' ∧ ∀ a, m' a = (m a).map (· + (es.map fun e => ((List.range w).map fun c =>
      if a = blockCell r P rs0 rs1 g.outCols e.1.toNat c then wt e.2.2 * xv e.2.1.toNat c else 0).sum).sum) := by
  obtain ⟨⟨rows, hr⟩, _⟩ := hg.holds
  rw [WMap.forEach_ok hr] at hes
  cases hes
  have h := rowsLoopW_ok wt hr (T := fun t => 0 ≤ t ∧ t < nr) (S := fun s => 0 ≤ s ∧ s < nx)
    (xv := fun s c => xv s.toNat c) (n := w) (r := (⟨r.off, R, P, rs0, rs1⟩ : M2).fold g.outCols 1)
    (x := (⟨x.off, X, Q, xs0, xs1⟩ : M2).fold g.inCols 1)
    (fun q hq hne => by
      obtain ⟨s, hs⟩ := List.exists_mem_of_ne_nil _ hne
      exact (he (q.1, s) (GMap.mem_edges' hq hs)).1)
    (fun q hq s hs => (he (q.1, s) (GMap.mem_edges' hq hs)).2) rows.length 0 (m := m) (by omega) (ready S hm)
  rw [List.drop_zero] at h
  have hfin : weighted wt g r x m = .ok (m.plus (addTo (addsW wt ((⟨r.off, R, P, rs0, rs1⟩ : M2).fold g.outCols 1) w
      (fun s c => xv s.toNat c) (edges rows)))) := by
    unfold weighted
    rw [ofView_ok S.rd S.rs, Res.ok_bind, ofView_ok S.xd S.xs, Res.ok_bind, WMap.size_ok hr, Int.toNat_natCast]
    exact h
  refine ⟨_, hfin, ?_⟩
  · intro a
    unfold Buf.plus
    congr 1
    funext u
    congr 1
    have he' : ∀ e ∈ edges rows, 0 ≤ e.1 := fun e h => (he e h).1.1
    clear he h hm hfin
    generalize edges rows = es at he'
    unfold addTo addsW
    induction es with
    | nil => rfl
    | cons e l ih =>
      rw [List.flatMap_cons, List.map_append, List.sum_append, List.map_cons, List.sum_cons,
        ih (fun e h => he' e (List.mem_cons_of_mem _ h))]
      congr 1
      unfold edgeAdds
      rw [List.map_map]
      congr 1
      apply List.map_congr_left
      intro c _
      obtain ⟨k, hk⟩ := Int.eq_ofNat_of_zero_le (he' e (by simp))
      simp only [Function.comp]
      rw [hk, fold_cell r S.oc_pos S.oc_dvd S.rrow k c]
      rfl

/-- 0 ← 1 with weight bits 1. -/
def exW (w : Int) : Res GMap := (GMap.ofSizes 2 3).pushVec 0 (WMap.flat [(1, w)])

example : ∃ m', (exW 1077936128 >>= fun g => weighted (fun _ => 3) g exR exX exM) = .ok m' ∧
    cells10 m' = [30, 60, 100, 200, 1, 2, 10, 20, 5, 6].map some := ⟨_, rfl, by decide⟩

/-- C44 is false for weighted maps: after the weighted pass the unweighted one runs over sources and weight bits
alike.  With weight 3.0 (bits 1077936128) it reads far outside of the memory; with the denormal weight of bits 2
row 1 is added once more, without weight, and row 2 is added too. -/
theorem C44_weighted_fails : (exW 1077936128 >>= fun g => gatherW (fun _ => 3) g exR exX exM) = .ub ∧
    ∃ m', (exW 2 >>= fun g => gatherW (fun _ => 3) g exR exX exM) = .ok m' ∧
      cells10 m' = [45, 86, 100, 200, 1, 2, 10, 20, 5, 6].map some := ⟨rfl, _, rfl, by decide⟩

/-! ## Packs -/

theorem rows_ok {v : View} {R P s0 s1 i n : Nat} (hd : v.dims = [R, P]) (hs : v.strides = [s0, s1]) (h : i + n ≤ R) :
    rows v i n = .ok ⟨v.off + s0 * i, [n, P], [s0, s1]⟩ := by
  unfold rows
  rw [hd, hs]
  have : ((i : Int) + n ≤ R) := by omega
  simp [Res.get, this]

theorem blockCell_one (v : View) (P s0 s1 t c : Nat) : blockCell v P s0 s1 1 t c = v.off + t * s0 + c * s1 := by
  simp [blockCell, Nat.mod_one]

/-- C44 for packs with one block per row: with offsets `oo k`, `io k`, map `k` adds rows `io k`, … of `x` to rows
`oo k`, … of `r`. -/
theorem C44_pack_partial [AddCommMonoid α] (p : GPack) (oo io : Nat → Nat) (es : Nat → List (Int × Int))
    {r x : View} {R P X rs0 rs1 xs0 xs1 : Nat} (hc : p.outCols = 1 ∧ p.inCols = 1 ∧ p.outColsN = 1 ∧ p.inColsN = 1)
    (hmap : ∀ k g, p.maps[k]? = some g → GMap.Made g ∧ g.forEach = .ok (es k) ∧ g.outCols = 1 ∧ g.inCols = 1 ∧
      g.outColsN = 1 ∧ g.inColsN = 1 ∧ 0 ≤ g.nOut ∧ 0 ≤ g.nIn ∧ oo k + g.nOut ≤ R ∧ io k + g.nIn ≤ X ∧
      (∀ e ∈ es k, (0 ≤ e.1 ∧ e.1 < g.nOut) ∧ 0 ≤ e.2 ∧ e.2 < g.nIn) ∧
      p.outOffs[k]? = some (oo k : Int) ∧ p.inOffs[k]? = some (io k : Int))
    (S : Setting r x R P X P rs0 rs1 xs0 xs1 1 1 1 1 P) {xv : Nat → Nat → α} {m : Buf α}
    (hm : Mem (blockCell r P rs0 rs1 1) (blockCell x P xs0 xs1 1) R X P xv m) :
    ∃ m', gatherPack p r x m = .ok m' ∧ ∀ a, m' a = (m a).map (· + ((List.range p.maps.length).map fun k =>
      ((es k).map fun e => ((List.range P).map fun c =>
        if a = blockCell r P rs0 rs1 1 (oo k + e.1.toNat) c then xv (io k + e.2.toNat) c else 0).sum).sum).sum) := by
  -- the additions of round k
  have hround : ∀ k, k < p.maps.length → ∀ m, Mem (blockCell r P rs0 rs1 1) (blockCell x P xs0 xs1 1) R X P xv m →
      packRound p r x k m = .ok (m.plus (addTo (toAdd (fun t c => blockCell r P rs0 rs1 1 (oo k + t) c)
        (fun s c => xv (io k + s) c) P (es k)))) ∧
      Mem (blockCell r P rs0 rs1 1) (blockCell x P xs0 xs1 1) R X P xv
        (m.plus (addTo (toAdd (fun t c => blockCell r P rs0 rs1 1 (oo k + t) c)
        (fun s c => xv (io k + s) c) P (es k)))) := by
    intro k hk m hm
    obtain ⟨hmd, hfe, ho1, hi1, ho2, hi2, hn1, hn2, hb1, hb2, hin, hoff, hioff⟩ :=
      hmap k p.maps[k] (List.getElem?_eq_getElem hk)
    generalize hgk : p.maps[k] = g at *
    have hgk' : p.maps[k]? = some g := by rw [← hgk]; exact List.getElem?_eq_getElem hk
    obtain ⟨a, ha⟩ := Int.eq_ofNat_of_zero_le hn1
    obtain ⟨b, hb⟩ := Int.eq_ofNat_of_zero_le hn2
    constructor
    · unfold packRound
      have e1 : Res.get p.maps k = .ok g := by unfold Res.get; rw [hgk']
      have e2 : Res.get p.outOffs k = .ok (oo k : Int) := by unfold Res.get; rw [hoff]
      have e3 : Res.get p.inOffs k = .ok (io k : Int) := by unfold Res.get; rw [hioff]
      rw [e1, Res.ok_bind, e2, Res.ok_bind, e3, Res.ok_bind, ha, hb, rows_ok S.rd S.rs (by omega), Res.ok_bind,
        rows_ok S.xd S.xs (by omega), Res.ok_bind]
      have S' : Setting ⟨r.off + rs0 * oo k, [a, P], [rs0, rs1]⟩ ⟨x.off + xs0 * io k, [b, P], [xs0, xs1]⟩ a P b P
          rs0 rs1 xs0 xs1 g.outCols g.outColsN g.inCols g.inColsN P := by
        rw [ho1, hi1, ho2, hi2]
        exact ⟨rfl, rfl, rfl, rfl, by omega, Nat.mod_one _, by omega, Nat.mod_one _, Or.inl rfl, Or.inl rfl,
          by simp, by simp⟩
      have er : ∀ t c, blockCell ⟨r.off + rs0 * oo k, [a, P], [rs0, rs1]⟩ P rs0 rs1 1 t c =
          blockCell r P rs0 rs1 1 (oo k + t) c := by
        intro t c
        rw [blockCell_one, blockCell_one]
        dsimp only
        ring
      have ex : ∀ t c, blockCell ⟨x.off + xs0 * io k, [b, P], [xs0, xs1]⟩ P xs0 xs1 1 t c =
          blockCell x P xs0 xs1 1 (io k + t) c := by
        intro t c
        rw [blockCell_one, blockCell_one]
        dsimp only
        ring
      have hm' : Mem (blockCell ⟨r.off + rs0 * oo k, [a, P], [rs0, rs1]⟩ P rs0 rs1 g.outCols)
          (blockCell ⟨x.off + xs0 * io k, [b, P], [xs0, xs1]⟩ P xs0 xs1 g.inCols) a b P
          (fun s c => xv (io k + s) c) m := by
        rw [ho1, hi1]
        refine ⟨?_, ?_, ?_⟩
        · intro t c ht hc; rw [er]; exact hm.out _ _ (by omega) hc
        · intro s c hs hc; rw [ex]; exact hm.inn _ _ (by omega) hc
        · intro t s c d ht hs hc hd; rw [er, ex]; exact hm.apart _ _ _ _ (by omega) (by omega) hc hd
      have := gather_plus hmd hfe S' hm' (by rw [ha, hb] at hin; exact hin)
      rw [ho1] at this
      rw [this]
      congr 2
      congr 1
      unfold toAdd
      apply List.flatMap_congr
      intro e _
      apply List.map_congr_left
      intro c _
      rw [er]
    · refine ⟨?_, ?_, hm.apart⟩
      · intro t c ht hc
        unfold Buf.plus
        rw [Option.isSome_map]
        exact hm.out t c ht hc
      · intro s c hs hc
        unfold Buf.plus
        rw [hm.inn s c hs hc, Option.map_some, addTo_zero, add_zero]
        intro q hq hh
        obtain ⟨e, he, hq⟩ := List.mem_flatMap.mp hq
        obtain ⟨d, hd, rfl⟩ := List.mem_map.mp hq
        have := (hin e he).1
        exact hm.apart (oo k + e.1.toNat) s d c (by omega) hs (List.mem_range.mp hd) hc hh
  have hloop : ∀ (l : List Nat) (m : Buf α), (∀ k ∈ l, k < p.maps.length) →
      Mem (blockCell r P rs0 rs1 1) (blockCell x P xs0 xs1 1) R X P xv m →
      Res.forM l m (fun m i => packRound p r x i m) = .ok (m.plus fun a => (l.map fun k =>
        addTo (toAdd (fun t c => blockCell r P rs0 rs1 1 (oo k + t) c) (fun s c => xv (io k + s) c) P (es k)) a).sum) := by
    intro l
    induction l with
    | nil => intro m _ _; rw [Res.forM_nil]; congr 1; exact (Buf.plus_zero m).symm
    | cons k l ih =>
      intro m h1 h2
      have h3 := hround k (h1 k (by simp)) m h2
      rw [Res.forM_cons, h3.1, Res.ok_bind, ih _ (fun j hj => h1 j (List.mem_cons_of_mem _ hj)) h3.2, Buf.plus_plus]
      rfl
  have hfin := hloop (List.range p.maps.length) m (fun k hk => List.mem_range.mp hk) hm
  refine ⟨m.plus fun a => ((List.range p.maps.length).map fun k =>
        addTo (toAdd (fun t c => blockCell r P rs0 rs1 1 (oo k + t) c) (fun s c => xv (io k + s) c) P (es k)) a).sum, ?_, ?_⟩
  · unfold gatherPack
    rw [hc.1, hc.2.1, checks_ok S.rd S.xd (by omega) (Nat.mod_one _) (by omega) (Nat.mod_one _), Res.ok_bind]
    by_cases hz : p.maps.length = 0
    · rw [if_pos hz]
      rw [hz]
      congr 1
      exact (Buf.plus_zero m).symm
    · rw [if_neg hz, ofView_ok S.rd S.rs, Res.ok_bind, ofView_ok S.xd S.xs, Res.ok_bind, hc.2.2.1, hc.2.2.2,
        Pool.assrt_pos (by rw [fold_n1 rfl, fold_n1 rfl]), Res.ok_bind]
      exact hfin
  · intro a
    unfold Buf.plus
    congr 1
    funext u
    congr 1
    dsimp only
    congr 1
    apply List.map_congr_left
    intro k _
    unfold addTo toAdd
    induction es k with
    | nil => rfl
    | cons e l ih =>
      rw [List.flatMap_cons, List.map_append, List.sum_append, List.map_cons, List.sum_cons, ih, List.map_map]
      rfl

/-- Two maps with one output row and one input row, 0 ← 0 and 0 ← 0, 0, in a pack. -/
def exPack (cols : Nat) : Res GPack := do
  let g1 ← GMap.ofMap [(0, [0])] cols cols 1 1
  let g2 ← GMap.ofMap [(0, [0, 0])] cols cols 1 1
  GPack.ofVec [g1, g2]

example : ∃ m', (exPack 1 >>= fun p => gatherPack p exR exX exM) = .ok m' ∧
    cells10 m' = [1, 2, 120, 240, 1, 2, 10, 20, 5, 6].map some := ⟨_, rfl, by decide⟩

/-- C44 is false for packs with two blocks per row: the offsets count blocks but are used to select rows, so with
matrices of exactly the needed size the second map is refused. -/
theorem C44_pack_columns_fails : (exPack 2 >>= fun p => .ok (p.outOffs, p.inOffs, p.maps.map (·.nOut), p.maps.map (·.nIn))) =
      .ok ([0, 2], [0, 2], [1, 1], [1, 1]) ∧
    (exPack 2 >>= fun p => gatherPack p ⟨0, [2, 2], [2, 1]⟩ ⟨4, [2, 2], [2, 1]⟩ exM) = .throw := ⟨by decide, rfl⟩

end GatherRows

end Cnine
